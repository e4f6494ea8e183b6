import Verif.Proof.CheckedM
import Verif.Props.Elim
import Verif.Props.Exact

/-! C62: one missing check accounts for every wrong result.

`Model/Checked.lean` is the program with one change: dropping the equation `0 = v` with `v ≠ 0`
raises `NoSolution`.  The theorems here say that C13, C08 and C02, each false for the program in
/repo, hold in full for the changed one, and that the change removes nothing else. -/

namespace TDS

open Gauss

/-- **C62**, elimination (compare C13): with the check, elimination either reports that there is no
solution, and then there is none, or returns what the program in /repo returns, and that system has
exactly the solutions of the given one. -/
theorem C62_elim {C : Nat} {A : Mat} {b : Vec} (h : Spec.System C A b) (hC : 0 < C)
    (hC63 : C ≤ 63) (hb : ∀ x ∈ b, 0 ≤ x ∧ x ≤ 127) (hcov : ∃ r ∈ A, r.getD 0 0 ≠ 0) :
    (elimC A b = .error .noSolution ∧ ∀ x : Vec, x.length = C → ¬ Spec.Solves A b x) ∨
    (∃ A' b', elimC A b = .ok (A', b') ∧ elim A b = .ok (A', b') ∧
      ∀ x : Vec, x.length = C → (Spec.Solves A' b' x ↔ Spec.Solves A b x)) := by
  obtain ⟨A', b', he, hs⟩ := elim_spec (sys_of_system h hb) hC hC63 hcov
  rcases elimC_cmp (sys_of_system h hb) hC hC63 hcov with ⟨h1, h2⟩ | ⟨h1, h2⟩
  · refine Or.inr ⟨A', b', h1.trans he, he, fun x hx => ?_⟩
    rw [solves_iff (fun r hr => by rw [hs.sys.rect r hr, hx]) hs.sys.len.symm,
      solves_iff (fun r hr => by rw [h.rect r hr, hx]) h.len.symm]
    exact ⟨h2 A' b' he x, hs.sat x⟩
  · refine Or.inl ⟨h1, fun x hx hsol => h2 x ?_⟩
    rwa [solves_iff (fun r hr => by rw [h.rect r hr, hx]) h.len.symm] at hsol

/-- Non-vacuity: the witness of `C13_false` is now rejected, a consistent system is not. -/
example : elimC [[1], [1]] [0, 1] = .error .noSolution ∧
    elimC [[1, 1, 1], [0, 1, 1]] [2, 1] = .ok ([[0, 1, 1], [1, 0, 0]], [1, 1]) :=
  ⟨by decide +kernel, by decide +kernel⟩

/-- **C62**, one row (compare C08): with the check, the rows yielded are those rows yielded by the
program in /repo that solve the equations, in the same order. -/
theorem C62_rows {v : Nat} {m : Mat} (h : Spec.Part v m) (h2 : 2 ≤ m.length)
    (hlt : m.length < v) (hv : v ≤ 66) (ha : Spec.Adjacent v m) {q : Question}
    (hq : fromMatrix m = .ok q) :
    ∃ rows rowsC, solveQuestion q = .ok rows ∧ solveQuestionC q = .ok rowsC ∧
      rowsC.Sublist rows ∧ ∀ x, x ∈ rowsC ↔ x ∈ rows ∧ Spec.Solves q.A q.b x := by
  have hfm := fromMatrix_eq h h2 hlt
  cases hany : (questionOf m).b.any (fun x => decide (x < 0)) with
  | true => rw [hany, hq] at hfm; simp at hfm
  | false =>
    rw [hany, hq] at hfm
    simp only [Bool.false_eq_true, if_false, Except.ok.injEq] at hfm
    subst hfm
    have hpre := questionOf_pre h h2 hlt hv hany
    have hn := questionOf_ncols h h2
    obtain ⟨h5, h6⟩ := questionOf_rect h h2
    obtain ⟨rows, h1, hC⟩ := solveQuestionC_rows hpre (adjCols_iff h h2 ha)
    obtain ⟨rows', h1', -, hshape⟩ := solveQuestion_total hpre
    rw [h1] at h1'
    cases h1'
    rw [hn] at hshape
    refine ⟨rows, _, h1, hC, List.filter_sublist, fun x => ?_⟩
    rw [List.mem_filter, decide_eq_true_eq]
    constructor
    · rintro ⟨hx, -, -, hs⟩
      refine ⟨hx, ?_⟩
      rw [solves_iff (fun r hr => by rw [h5 r hr, (hshape x hx).1]) (by omega)]
      exact hs
    · rintro ⟨hx, hs⟩
      rw [solves_iff (fun r hr => by rw [h5 r hr, (hshape x hx).1]) (by omega)] at hs
      exact ⟨hx, by rw [hn]; exact (hshape x hx).1, (hshape x hx).2, hs⟩

/-- Non-vacuity: the question of `C08_false` has a wrong row in /repo and none with the check. -/
example : ((seed 5 3 1 3 >>= fromMatrix) >>= solveQuestion) = .ok [[0, 0]] ∧
    ((seed 5 3 1 3 >>= fromMatrix) >>= solveQuestionC) = .ok [] ∧
    ((seed 10 6 3 4 >>= fromMatrix) >>= solveQuestionC).map List.length = .ok 2 :=
  ⟨by decide +kernel, by decide +kernel, by decide +kernel⟩

/-- **C62.**  For every admissible parameter set the search with the check returns the results of
the search in /repo whose rows all have `k` ones, in the same order. -/
theorem C62_checked {v : Nat} {k l u : Int} (h : Good v k l u) {out : List Mat}
    (ho : IsOutput v k l u out) :
    (seed v k l u >>= solveC) = .ok (out.filter (fun m => m.all (fun r => decide (r.sum = k)))) := by
  have hv3 := h.v3
  rw [seed_eq (by omega), ok_bind, solveC_eq hv3 h.v66 h.vals, ← ho.eq hv3 h.v66]
  congr 1
  apply List.filter_congr
  intro m hm
  obtain ⟨hadj, htake⟩ := output_seeds hv3 h.v66 h.l0 h.lk ho m hm
  have hf : allOK k l u m = true ↔ Spec.IsSRG v k l u m :=
    ⟨srg_of_allOK h.l0 h.lk h.kv h.room hadj htake, allOK_of_srg⟩
  rw [Bool.eq_iff_iff, hf, C02_sound_of_regular h ho m hm]
  simp [List.all_eq_true]

/-- **C62** (compare C02 and C44): the search with the check succeeds, and returns, each once,
exactly the strongly regular matrices whose rows are justified to the left. -/
theorem C62_exact {v : Nat} {k l u : Int} (h : Good v k l u) :
    ∃ outC, (seed v k l u >>= solveC) = .ok outC ∧ outC.Nodup ∧
      ∀ m, m ∈ outC ↔ Spec.IsSRG v k l u m ∧ Spec.Justified v m := by
  have hv3 := h.v3
  have ho : IsOutput v k l u _ := ⟨_, seed_eq (by omega) k l u, solve_seed hv3 h.v66 k l⟩
  refine ⟨_, C62_checked h ho, (C04_nodup hv3 h.v66 ho).filter _, fun m => ?_⟩
  rw [← C44_regular h ho m, List.mem_filter]
  simp [List.all_eq_true]

/-- **C62**: the results that the check removes are exactly the wrong ones. -/
theorem C62_removes_wrong {v : Nat} {k l u : Int} (h : Good v k l u) {out outC : List Mat}
    (ho : IsOutput v k l u out) (hC : (seed v k l u >>= solveC) = .ok outC) {m : Mat}
    (hm : m ∈ out) : m ∉ outC ↔ ¬ Spec.IsSRG v k l u m := by
  rw [C62_checked h ho, Except.ok.injEq] at hC
  rw [C02_sound_of_regular h ho m hm, ← hC, List.mem_filter]
  simp [List.all_eq_true, hm]

/-- Non-vacuity: admissible parameters, and the wrong result of `C02_false`, which is removed. -/
example : Good 22 9 4 3 ∧ ∃ out outC, IsOutput 22 9 4 3 out ∧
    (seed 22 9 4 3 >>= solveC) = .ok outC ∧ badM ∈ out ∧ badM ∉ outC := by
  have hg : Good 22 9 4 3 := ⟨by decide, by decide, by decide, by decide, by decide, by decide,
    by decide, by decide⟩
  obtain ⟨out, ho, hm, -, hn⟩ := C02_false
  exact ⟨hg, out, _, ho, C62_checked hg ho, hm, (C62_removes_wrong hg ho (C62_checked hg ho) hm).2 hn⟩

/-- Non-vacuity: a run with the check that finds a graph. -/
example : (seed 5 2 0 1 >>= solveC) = .ok [[[0, 1, 1, 0, 0], [1, 0, 0, 1, 0], [1, 0, 0, 0, 1],
    [0, 1, 0, 0, 1], [0, 0, 1, 1, 0]]] := by decide +kernel

end TDS
