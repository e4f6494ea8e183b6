import Verif.Proof.Cliques
import Verif.Props.Blocks

/-! # C61: rows without a choice, and the exact result for disjoint complete graphs -/

namespace TDS

/-- **C61.**  If all unfinished columns agree, the step to the next row never branches. -/
theorem C61_single {v : Nat} {m : Mat} (h : Spec.Part v m) (h2 : 2 ≤ m.length)
    (hlt : m.length < v) (hv : v ≤ 66)
    (he : ∀ i j, m.length < i → i < v → m.length < j → j < v → Spec.ColEq m i j) :
    ∃ ms, advance m = .ok ms ∧ ms.length ≤ 1 := by
  obtain ⟨rows, hr⟩ := advance_spec h h2 hlt hv
  refine ⟨_, hr.eq, ?_⟩
  rw [← hr.adv_eq]
  exact adv_single h h2 hlt hv he

/-- **C61.**  If the next row would stay below the degree of row 0 even with ones in all unfinished
columns, there is no next row. -/
theorem C61_overfull {v : Nat} {m : Mat} (h : Spec.Part v m) (h2 : 2 ≤ m.length)
    (hlt : m.length < v) (hv : v ≤ 66)
    (hq : (m.map (fun r => r.getD m.length 0)).sum + ((v - m.length - 1 : Nat) : Int) <
      (m.getD 0 []).sum) : advance m = .ok [] := by
  obtain ⟨rows, hr⟩ := advance_spec h h2 hlt hv
  have := adv_overfull h h2 hlt hv (by
    show _ < (m.getD 0 []).sum - (m.map (fun r : Vec => r.getD m.length 0) ++ [0]).sum
    rw [List.sum_append, List.sum_singleton]
    omega)
  rw [hr.eq, ← hr.adv_eq, this]

section
variable {v : Nat} {k l : Int}

/-- **C61.**  For the parameters of disjoint complete graphs (`u = 0`) every result is strongly
regular: the search returns no wrong matrix. -/
theorem C61_exact (h : Good v k l 0) {out : List Mat} (ho : IsOutput v k l 0 out) :
    ∀ m ∈ out, Spec.IsSRG v k l 0 m := by
  intro m hm
  have ha := (C03_structure h.v3 h.v66 (Or.inl ⟨h.l0, h.lk⟩) ho m hm).1
  have hp := output_pairLE h ho m hm
  exact srg_of_pairLE ha hp h.count (clique_sums ha hp (output_firstSum h ho m hm))

/-- **C61.**  It returns exactly one matrix if `k + 1` divides `v`, and none otherwise. -/
theorem C61_count (h : Good v k l 0) {out : List Mat} (ho : IsOutput v k l 0 out) :
    out.length = if k + 1 ∣ (v : Int) then 1 else 0 := by
  have hall := C61_exact h ho
  obtain ⟨hex, huniq⟩ := C58_cliques h ho
  split
  · next hd =>
    obtain ⟨m, hm, hs⟩ := hex.2 hd
    have hn := C04_nodup h.v3 h.v66 ho
    match out, hn, hm, hall, huniq with
    | [x], _, _, _, _ => rfl
    | x :: y :: t, hn, _, hall, huniq =>
      exfalso
      have := huniq x (by simp) y (by simp) (hall x (by simp)) (hall y (by simp))
      simp [this] at hn
  · next hd =>
    rw [List.length_eq_zero_iff, List.eq_nil_iff_forall_not_mem]
    exact fun m hm => hd (hex.1 ⟨m, hm, hall m hm⟩)

end

/-- Two triangles: one result. -/
example : ∃ out, IsOutput 6 2 1 0 out ∧ out.length = 1 := by
  obtain ⟨s, out, h1, h2⟩ := C05_total (v := 6) (by decide) (by decide) 2 1 0
  refine ⟨out, ⟨s, h1, h2⟩, ?_⟩
  rw [C61_count ⟨by decide, by decide, by decide, by decide, by decide, by decide, by decide,
    by decide⟩ ⟨s, h1, h2⟩]
  decide

/-- Seven points do not split into triangles: no result, although the checks on the parameters
pass. -/
example : ∃ out, IsOutput 7 2 1 0 out ∧ out.length = 0 := by
  obtain ⟨s, out, h1, h2⟩ := C05_total (v := 7) (by decide) (by decide) 2 1 0
  refine ⟨out, ⟨s, h1, h2⟩, ?_⟩
  rw [C61_count ⟨by decide, by decide, by decide, by decide, by decide, by decide, by decide,
    by decide⟩ ⟨s, h1, h2⟩]
  decide

/-- A triangle is complete and three points are left: the premise of `C61_single` holds and the
step yields one row. -/
example : let m : Mat := [[0, 1, 1, 0, 0, 0], [1, 0, 1, 0, 0, 0], [1, 1, 0, 0, 0, 0]]
    (∀ i < 6, ∀ j < 6, 3 < i → 3 < j → ∀ r ∈ m, r.getD i 0 = r.getD j 0) ∧
    advance m = .ok [m ++ [[0, 0, 0, 0, 1, 1]]] := by decide +kernel

/-- One point is left after two triangles: the premise of `C61_overfull` holds. -/
example : let m : Mat := [[0, 1, 1, 0, 0, 0, 0], [1, 0, 1, 0, 0, 0, 0], [1, 1, 0, 0, 0, 0, 0],
      [0, 0, 0, 0, 1, 1, 0], [0, 0, 0, 1, 0, 1, 0], [0, 0, 0, 1, 1, 0, 0]]
    (m.map (fun r => r.getD m.length 0)).sum + ((7 - m.length - 1 : Nat) : Int) <
      (m.getD 0 []).sum ∧ advance m = .ok [] := by decide +kernel

end TDS
