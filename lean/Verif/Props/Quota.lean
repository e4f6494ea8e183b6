import Verif.Proof.QuotaM
import Verif.Props.Checked

/-! C80: one guard accounts for every wrong result, too.

`Model/Quota.lean` is the program with one change: `Q.bounds.size > 0 and` is removed from
/repo/srg/solver.py:43.  The theorems here say that the changed program returns, for all parameters,
exactly those results of the program in /repo whose rows all have the degree of the first; and for
admissible parameters, exactly the strongly regular ones. -/

namespace TDS

/-- **C80**, one question: without the guard the rows yielded are those rows yielded by the program
in /repo that use up the quota, in the same order. -/
theorem C80_question {v : Nat} {m : Mat} (h : Spec.Part v m) (h2 : 2 ≤ m.length)
    (hlt : m.length < v) (hv : v ≤ 66) {q : Question} (hq : fromMatrix m = .ok q) :
    ∃ rows, solveQuestion q = .ok rows ∧
      solveQuestionD q = .ok (rows.filter (fun x => decide (x.sum = q.quota))) := by
  have hfm := fromMatrix_eq h h2 hlt
  cases hany : (questionOf m).b.any (fun x => decide (x < 0)) with
  | true => rw [hany, hq] at hfm; simp at hfm
  | false =>
    rw [hany, hq] at hfm
    simp only [Bool.false_eq_true, if_false, Except.ok.injEq] at hfm
    subst hfm
    exact solveQuestionD_rows (questionOf_pre h h2 hlt hv hany)

/-- Non-vacuity: the question of `C08_false` yields a row in /repo and none without the guard, and
another question keeps its rows. -/
example : ((seed 5 3 1 3 >>= fromMatrix) >>= solveQuestion) = .ok [[0, 0]] ∧
    ((seed 5 3 1 3 >>= fromMatrix) >>= solveQuestionD) = .ok [] ∧
    ((seed 10 6 3 4 >>= fromMatrix) >>= solveQuestionD).map List.length = .ok 2 :=
  ⟨by decide +kernel, by decide +kernel, by decide +kernel⟩

/-- **C80**, one step: without the guard a step finds those extensions found by the program in /repo
whose new row has as many ones as the first row, in the same order. -/
theorem C80_step {v : Nat} {m : Mat} (h : Spec.Part v m) (h2 : 2 ≤ m.length)
    (hlt : m.length < v) (hv : v ≤ 66) {l : List Mat} (hl : advance m = .ok l) :
    advanceD m = .ok (l.filter
      (fun m' => decide ((m'.getD m.length []).sum = (m.getD 0 []).sum))) := by
  have e : adv m = l := by unfold adv; rw [hl]
  rw [advanceD_rows h h2 hlt hv, e]
  rfl

/-- **C80.**  For all parameters, admissible or not, the search without the guard returns the
results of the search in /repo whose rows below the first two have as many ones as the first row, in
the same order. -/
theorem C80_all {v : Nat} {k l u : Int} (hv3 : 3 ≤ v) (hv66 : v ≤ 66) {out : List Mat}
    (ho : IsOutput v k l u out) :
    (seed v k l u >>= solveD) = .ok (out.filter
      (fun m => (m.drop 2).all (fun r => decide (r.sum = (m.getD 0 []).sum)))) := by
  rw [seed_eq (by omega), ok_bind, solveD_eq hv3 hv66, ← ho.eq hv3 hv66]
  rfl

/-- Non-vacuity: parameters that are not admissible, with a result, which is kept. -/
example : ¬ Good 5 2 0 7 ∧ ∃ out, IsOutput 5 2 0 7 out ∧ out.length = 1 ∧
    (seed 5 2 0 7 >>= solveD) = .ok out := by
  refine ⟨fun h => absurd h.count (by decide), [[[0, 1, 1, 0, 0], [1, 0, 0, 1, 0], [1, 0, 0, 0, 1],
    [0, 1, 0, 0, 1], [0, 0, 1, 1, 0]]], ⟨[[0, 1, 1, 0, 0], [1, 0, 0, 1, 0]], ?_, ?_⟩, rfl, ?_⟩ <;>
    decide +kernel

/-- **C80**: for admissible parameters the search without the guard returns the results of the
search in /repo whose rows all have `k` ones, in the same order. -/
theorem C80_regular {v : Nat} {k l u : Int} (h : Good v k l u) {out : List Mat}
    (ho : IsOutput v k l u out) :
    (seed v k l u >>= solveD) = .ok (out.filter (fun m => m.all (fun r => decide (r.sum = k)))) := by
  have hv3 := h.v3
  rw [C80_all hv3 h.v66 ho]
  congr 1
  apply List.filter_congr
  intro m hm
  obtain ⟨-, htake⟩ := output_seeds hv3 h.v66 h.l0 h.lk ho m hm
  have e : m = seed0 v k :: seed1 v k l :: m.drop 2 := by
    conv_lhs => rw [← List.take_append_drop 2 m, ← htake]
    rfl
  have h0 : (seed0 v k).sum = k := seed0_sum (by have := h.l0; have := h.lk; omega) h.kv
  have h1 : (seed1 v k l).sum = k := seed1_sum h.l0 h.lk h.kv h.room
  rw [e]
  simp [h0, h1]

/-- **C80** (compare C02 and C44): the search without the guard succeeds, and returns, each once,
exactly the strongly regular matrices whose rows are justified to the left. -/
theorem C80_exact {v : Nat} {k l u : Int} (h : Good v k l u) :
    ∃ outD, (seed v k l u >>= solveD) = .ok outD ∧ outD.Nodup ∧
      ∀ m, m ∈ outD ↔ Spec.IsSRG v k l u m ∧ Spec.Justified v m := by
  have hv3 := h.v3
  have ho : IsOutput v k l u _ := ⟨_, seed_eq (by omega) k l u, solve_seed hv3 h.v66 k l⟩
  refine ⟨_, C80_regular h ho, (C04_nodup hv3 h.v66 ho).filter _, fun m => ?_⟩
  rw [← C44_regular h ho m, List.mem_filter]
  simp [List.all_eq_true]

/-- **C80**: for admissible parameters both corrections, of the elimination (C62) and of the quota
check, return the same list. -/
theorem C80_same {v : Nat} {k l u : Int} (h : Good v k l u) :
    (seed v k l u >>= solveD) = (seed v k l u >>= solveC) := by
  have hv3 := h.v3
  have ho : IsOutput v k l u _ := ⟨_, seed_eq (by omega) k l u, solve_seed hv3 h.v66 k l⟩
  rw [C80_regular h ho, C62_checked h ho]

/-- Non-vacuity: admissible parameters, and the wrong result of `C02_false`, which is removed. -/
example : Good 22 9 4 3 ∧ ∃ out outD, IsOutput 22 9 4 3 out ∧
    (seed 22 9 4 3 >>= solveD) = .ok outD ∧ badM ∈ out ∧ badM ∉ outD := by
  have hg : Good 22 9 4 3 := ⟨by decide, by decide, by decide, by decide, by decide, by decide,
    by decide, by decide⟩
  obtain ⟨out, ho, hm, -, hn⟩ := C02_false
  refine ⟨hg, out, _, ho, C80_same hg |>.trans (C62_checked hg ho), hm, ?_⟩
  exact (C62_removes_wrong hg ho (C62_checked hg ho) hm).2 hn

/-- Non-vacuity: a run without the guard that finds a graph. -/
example : (seed 5 2 0 1 >>= solveD) = .ok [[[0, 1, 1, 0, 0], [1, 0, 0, 1, 0], [1, 0, 0, 0, 1],
    [0, 1, 0, 0, 1], [0, 0, 1, 1, 0]]] := by decide +kernel

end TDS
