import Verif.Proof.Sound
import Verif.Proof.BadM
import Verif.Proof.RightStep

/-! C02: finished matrices.  The property fails; what remains true of every finished matrix. -/

namespace TDS

theorem adv_of_ext {R : Nat} (h : ext R = true) : badM.take (R + 1) ∈ adv (badM.take R) := by
  unfold ext at h
  unfold adv
  cases hc : advance (badM.take R) with
  | error e => rw [hc] at h; simp at h
  | ok l =>
    rw [hc] at h
    simp only [List.contains_iff_mem] at h
    exact h

theorem mem_iterate_succ {n : Nat} {lst : List Mat} {m m' : Mat} (h : m ∈ nextLevel^[n] lst)
    (h' : m' ∈ adv m) : m' ∈ nextLevel^[n + 1] lst := by
  rw [Function.iterate_succ_apply']
  exact mem_nextLevel.2 ⟨m, h, h'⟩

theorem badM_right : ∀ R < 22, 2 ≤ R → R ≠ 17 →
    rightStep 22 9 4 3 (badM.take R) (badM.getD R []) = true := by decide +kernel

theorem badM_adv {R : Nat} (h2 : 2 ≤ R) (hR : R < 22) : badM.take (R + 1) ∈ adv (badM.take R) := by
  by_cases h17 : R = 17
  · rw [h17]; exact adv_of_ext ext17
  · have hlen : (badM.take R).length = R := by
      rw [List.length_take, show badM.length = 22 from rfl]; omega
    have := rightStep_mem (by rw [hlen]; exact h2) (by rw [hlen]; exact hR) (by decide) (by decide)
      (by decide) (by decide) (badM_right R hR h2 h17)
    have hR' : R < badM.length := hR
    rwa [List.getD_eq_getElem _ _ hR', List.take_append_getElem] at this

theorem badM_reached : badM ∈ nextLevel^[20] [[seed0 22 9, seed1 22 9 4]] := by
  have h : ∀ n ≤ 20, badM.take (n + 2) ∈ nextLevel^[n] [[seed0 22 9, seed1 22 9 4]] := by
    intro n
    induction n with
    | zero => intro _; decide +kernel
    | succ n ih => intro hn; exact mem_iterate_succ (ih (by omega)) (badM_adv (by omega) (by omega))
  exact h 20 (le_refl _)

/-- **C02 is false as stated**: `(22, 9, 4, 3)` passes `assert_srg`, the search returns the matrix
`badM`, and `badM` is not regular, so it is not strongly regular. -/
theorem C02_false : ∃ out, IsOutput 22 9 4 3 out ∧ badM ∈ out ∧
    ((22 : Int) - 9 - 1) * 3 = 9 * (9 - 4 - 1) ∧ ¬ Spec.IsSRG 22 9 4 3 badM := by
  refine ⟨_, ⟨_, seed_eq (by decide) 9 4 3, solve_seed (by decide) (by decide) 9 4⟩,
    badM_reached, by decide, ?_⟩
  intro h
  have := h.deg (badM.getD 17 []) (by decide)
  revert this
  decide

/-- **C02**, partial: what is true of every finished matrix `m`.  It is the adjacency matrix of a
simple graph; no vertex has more than `k` neighbours; no two vertices have more common neighbours
than required; for the last vertex both hold with equality.  Missing: equality for the other
vertices, which is false in general (`C02_false`). -/
theorem C02_sound_partial {v : Nat} {k l u : Int} (h : Good v k l u) {out : List Mat}
    (ho : IsOutput v k l u out) : ∀ m ∈ out, Spec.IsAdj v m ∧ (∀ r ∈ m, r.sum ≤ k) ∧
      (∀ i j, i < j → j < v → Spec.meet (m.getD i []) (m.getD j []) ≤
        if Spec.ent m i j = 1 then l else u) ∧
      (m.getD (v - 1) []).sum = k ∧
      (∀ i < v - 1, Spec.meet (m.getD i []) (m.getD (v - 1) []) =
        if Spec.ent m i (v - 1) = 1 then l else u) := by
  intro m hm
  have hadj := (C03_structure h.v3 h.v66 (Or.inl ⟨h.l0, h.lk⟩) ho m hm).1
  have hp := output_pairLE h ho m hm
  obtain ⟨h1, h2⟩ := output_last h ho m hm
  have hv3 := h.v3
  have hlen : (m.take (v - 1)).length = v - 1 := by
    rw [List.length_take, hadj.square]; omega
  rw [hlen] at h2
  refine ⟨hadj, hp.sum, fun i j hij hj => hp.meet i j hij (by rw [hadj.square]; exact hj), h1, ?_⟩
  intro i hi
  have := h2 i hi
  have e : (m.take (v - 1)).getD i [] = m.getD i [] := by
    rw [List.getD_eq_getElem?_getD, List.getElem?_take, if_pos hi, List.getD_eq_getElem?_getD]
  unfold Spec.ent at this ⊢
  rwa [e] at this

/-- **C02**, with the check the code omits: a finished matrix is strongly regular if and only if
all its rows have `k` ones. -/
theorem C02_sound_of_regular {v : Nat} {k l u : Int} (h : Good v k l u) {out : List Mat}
    (ho : IsOutput v k l u out) : ∀ m ∈ out,
      (Spec.IsSRG v k l u m ↔ ∀ r ∈ m, r.sum = k) := by
  intro m hm
  refine ⟨fun hs => hs.deg, fun hd => ?_⟩
  exact srg_of_pairLE (C03_structure h.v3 h.v66 (Or.inl ⟨h.l0, h.lk⟩) ho m hm).1
    (output_pairLE h ho m hm) h.count hd

/-- Non-vacuity. -/
example : Good 5 2 0 1 := ⟨by decide, by decide, by decide, by decide, by decide, by decide,
  by decide, by decide⟩

/-- Non-vacuity: the parameters of the counterexample are in the domain of the theorems above. -/
example : Good 22 9 4 3 := ⟨by decide, by decide, by decide, by decide, by decide, by decide,
  by decide, by decide⟩

end TDS
