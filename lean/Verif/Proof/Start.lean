import Verif.Proof.Relabel
import Mathlib.Tactic.Linarith

/-! The start of the search: parameter identities, and the first two rows of a sorted array. -/

namespace TDS

open Finset

theorem Arr.count {v : Nat} {k l u : Int} {M : Nat → Nat → Int} (h : Arr v k l u M) (hv : 0 < v) :
    ((v : Int) - k - 1) * u = k * (k - l - 1) := by
  have e1 : ∑ j ∈ range v, ∑ t ∈ range v, M 0 t * M j t = k * k := by
    rw [Finset.sum_comm]
    have : ∀ t ∈ range v, ∑ j ∈ range v, M 0 t * M j t = M 0 t * k := by
      intro t ht
      rw [← Finset.mul_sum]
      rw [← h.deg t (Finset.mem_range.1 ht)]
      congr 1
      apply Finset.sum_congr rfl
      intro j hj
      exact h.sym _ (Finset.mem_range.1 hj) _ (Finset.mem_range.1 ht)
    rw [Finset.sum_congr rfl this, ← Finset.sum_mul, h.deg 0 hv]
  have e2 : ∀ j ∈ range v, ∑ t ∈ range v, M 0 t * M j t =
      M 0 j * (l - u) + u + if j = 0 then k - u else 0 := by
    intro j hj
    rw [Finset.mem_range] at hj
    by_cases h0 : j = 0
    · subst h0
      have : ∀ t ∈ range v, M 0 t * M 0 t = M 0 t := by
        intro t _
        rcases h.bin 0 t with h | h <;> rw [h] <;> rfl
      rw [Finset.sum_congr rfl this, h.deg 0 hv, h.diag 0 hv]
      simp
    · rw [h.inter 0 hv j hj (Ne.symm h0), if_neg h0]
      rcases h.bin 0 j with h | h <;> rw [h] <;> simp
  rw [Finset.sum_congr rfl e2, Finset.sum_add_distrib, Finset.sum_add_distrib, ← Finset.sum_mul,
    h.deg 0 hv, Finset.sum_ite_eq' (range v) 0, if_pos (Finset.mem_range.2 hv)] at e1
  simp at e1
  linarith

theorem Arr.nonneg {v : Nat} {k l u : Int} {M : Nat → Nat → Int} (h : Arr v k l u M) (i j : Nat) :
    0 ≤ M i j := by rcases h.bin i j with h | h <;> omega

theorem Arr.le_one {v : Nat} {k l u : Int} {M : Nat → Nat → Int} (h : Arr v k l u M) (i j : Nat) :
    M i j ≤ 1 := by rcases h.bin i j with h | h <;> omega

theorem Arr.complete {v : Nat} {k l u : Int} {M : Nat → Nat → Int} (h : Arr v k l u M)
    (hk : (v : Int) = k + 1) {i j : Nat} (hi : i < v) (hj : j < v) (hij : i ≠ j) : M i j = 1 := by
  by_contra hne
  have h0 : M i j = 0 := (h.bin i j).resolve_right hne
  have hs : ∑ t ∈ range v, (1 - M i t) = 1 := by
    rw [Finset.sum_sub_distrib, h.deg i hi]; simp; omega
  have : ∑ t ∈ ({i, j} : Finset ℕ), (1 - M i t) ≤ ∑ t ∈ range v, (1 - M i t) := by
    apply Finset.sum_le_sum_of_subset_of_nonneg
    · intro t ht
      simp only [Finset.mem_insert, Finset.mem_singleton] at ht
      rw [Finset.mem_range]
      rcases ht with rfl | rfl <;> assumption
    · intro t _ _
      have := h.le_one i t
      omega
  rw [hs, Finset.sum_pair hij, h0, h.diag i hi] at this
  omega

/-- In the complete case `u` may be replaced by zero. -/
theorem Arr.norm {v : Nat} {k l u : Int} {M : Nat → Nat → Int} (h : Arr v k l u M)
    (hk : (v : Int) = k + 1) : Arr v k l 0 M := by
  refine ⟨h.bin, h.diag, h.sym, h.deg, ?_⟩
  intro i hi j hj hij
  rw [h.inter i hi j hj hij, if_pos (h.complete hk hi hj hij), if_pos (h.complete hk hi hj hij)]

theorem Arr.u_bounds {v : Nat} {k l u : Int} {M : Nat → Nat → Int} (h : Arr v k l u M)
    (hv : 0 < v) (hk : (v : Int) ≠ k + 1) : 0 ≤ u ∧ u ≤ v := by
  obtain ⟨j, hj, h0, hM⟩ : ∃ j < v, j ≠ 0 ∧ M 0 j = 0 := by
    by_contra hno
    push Not at hno
    apply hk
    have e : ∀ t ∈ range v, M 0 t = 1 - if t = 0 then 1 else 0 := by
      intro t ht
      by_cases ht0 : t = 0
      · subst ht0; rw [h.diag 0 hv]; simp
      · rw [if_neg ht0]
        rcases h.bin 0 t with h1 | h1
        · exact absurd h1 (hno t (Finset.mem_range.1 ht) ht0)
        · rw [h1]; rfl
    have := h.deg 0 hv
    rw [Finset.sum_congr rfl e, Finset.sum_sub_distrib, Finset.sum_ite_eq' (range v) 0,
      if_pos (Finset.mem_range.2 hv)] at this
    simp at this
    omega
  have hi := h.inter 0 hv j hj (Ne.symm h0)
  rw [hM, if_neg (by omega)] at hi
  rw [← hi]
  constructor
  · apply Finset.sum_nonneg
    intro t _
    exact mul_nonneg (h.nonneg _ _) (h.nonneg _ _)
  · calc ∑ t ∈ range v, M 0 t * M j t ≤ ∑ t ∈ range v, (1 : Int) := by
          apply Finset.sum_le_sum
          intro t _
          rcases h.bin 0 t with h1 | h1 <;> rcases h.bin j t with h2 | h2 <;> rw [h1, h2] <;> simp
      _ = v := by simp

/-- A nonincreasing 0/1 function is determined by its sum. -/
theorem threshold {f : Nat → Int} (hb : ∀ t, f t = 0 ∨ f t = 1) {a b : Nat} (hab : a ≤ b)
    (hd : ∀ i j, a ≤ i → i < j → j < b → f j ≤ f i) :
    ∃ c, a ≤ c ∧ c ≤ b ∧ ∑ t ∈ Ico a b, f t = (c : Int) - a ∧
      ∀ t, a ≤ t → t < b → f t = if t < c then 1 else 0 := by
  induction b, hab using Nat.le_induction with
  | base => exact ⟨a, le_refl _, le_refl _, by simp, by omega⟩
  | succ b hab ih =>
    obtain ⟨c, h1, h2, h3, h4⟩ := ih (fun i j hi hij hj => hd i j hi hij (by omega))
    rw [Finset.sum_Ico_succ_top hab]
    rcases hb b with hb' | hb'
    · refine ⟨c, h1, by omega, by rw [h3, hb']; omega, ?_⟩
      intro t hat htb
      by_cases e : t = b
      · subst e; rw [hb', if_neg (by omega)]
      · exact h4 t hat (by omega)
    · have hc : c = b := by
        by_contra hne
        have := hd c b h1 (by omega) (by omega)
        rw [h4 c h1 (by omega), hb'] at this
        simp at this
      subst hc
      refine ⟨c + 1, by omega, by omega, by rw [h3, hb']; push_cast; omega, ?_⟩
      intro t hat htb
      rw [if_pos htb]
      by_cases e : t = c
      · subst e; exact hb'
      · rw [h4 t hat (by omega), if_pos (by omega)]

theorem range_split (v : Nat) (hv : 0 < v) (f : Nat → Int) :
    ∑ t ∈ range v, f t = f 0 + ∑ t ∈ Ico 1 v, f t := by
  rw [Finset.range_eq_Ico, Finset.sum_eq_sum_Ico_succ_bot hv]

theorem row0_eq {v : Nat} {k l u : Int} {M : Nat → Nat → Int} (h : Arr v k l u M) (hv : 2 ≤ v)
    (h0 : Spec.LeftJustified v (matOf v M 0) (rowAt v M 0)) :
    0 ≤ k ∧ k < v ∧ ∀ t < v, M 0 t = if 1 ≤ t ∧ (t : Int) < k + 1 then 1 else 0 := by
  obtain ⟨c, h1, h2, h3, h4⟩ := threshold (f := M 0) (h.bin 0) (a := 1) (b := v) (by omega) (by
    intro i j hi hij hj
    have := h0 i j (by rw [matOf_length]; omega) hij hj (by
      rw [colEq_matOf (by omega) hj]; omega)
    rwa [rowAt_getD hj, rowAt_getD (by omega)] at this)
  have hk := h.deg 0 (by omega)
  rw [range_split v (by omega), h.diag 0 (by omega), h3] at hk
  refine ⟨by omega, by omega, ?_⟩
  intro t ht
  by_cases ht0 : t = 0
  · subst ht0; rw [h.diag 0 (by omega), if_neg (by omega)]
  · rw [h4 t (by omega) ht]
    by_cases hc : t < c
    · rw [if_pos hc, if_pos (by omega)]
    · rw [if_neg hc, if_neg (by omega)]

theorem rowAt0_seed {v : Nat} {k l u : Int} {M : Nat → Nat → Int} (h : Arr v k l u M) (hv : 2 ≤ v)
    (h0 : Spec.LeftJustified v (matOf v M 0) (rowAt v M 0)) : rowAt v M 0 = seed0 v k := by
  obtain ⟨hk0, hkv, hr⟩ := row0_eq h hv h0
  apply Bounds.ext_getD (by rw [rowAt_length, seed0_length])
  intro t
  by_cases ht : t < v
  · rw [rowAt_getD ht, seed0_getD ht, hr t ht, pyIdx_nonneg (by omega)]
    by_cases c : 1 ≤ t ∧ (t : Int) < k + 1
    · rw [if_pos c, if_pos (by omega)]
    · rw [if_neg c, if_neg (by omega)]
  · rw [List.getD_eq_default _ _ (by rw [rowAt_length]; omega),
      List.getD_eq_default _ _ (by rw [seed0_length]; omega)]

theorem rowAt1_seed {v : Nat} {k l u : Int} {M : Nat → Nat → Int} (h : Arr v k l u M) (hv : 2 ≤ v)
    (hkl : 0 < k ∨ l = 0) (h0 : Spec.LeftJustified v (matOf v M 0) (rowAt v M 0))
    (h1 : Spec.LeftJustified v (matOf v M 1) (rowAt v M 1)) :
    rowAt v M 1 = seed1 v k l ∧ (M 0 1 = 1 ∨ u = l) := by
  obtain ⟨hk0, hkv, hr⟩ := row0_eq h hv h0
  have hrow0 := rowAt0_seed h hv h0
  have hlj : ∀ i j, 1 < i → i < j → j < v → M 0 i = M 0 j → M 1 j ≤ M 1 i := by
    intro i j hi hij hj he
    have := h1 i j (by rw [matOf_length]; exact hi) hij hj (by
      rw [colEq_matOf (by omega) hj]
      intro r hr'
      obtain rfl : r = 0 := by omega
      exact he)
    rwa [rowAt_getD hj, rowAt_getD (by omega)] at this
  have h10 : M 1 0 = M 0 1 := h.sym 1 (by omega) 0 (by omega)
  have hin := h.inter 0 (by omega) 1 (by omega) (by omega)
  -- entries of the second row, off the first position
  have hmain : (∀ t, t < v → t ≠ 0 → M 1 t =
      if (k + 1 ≤ (t : Int) ∧ (t : Int) < 2 * k - l) ∨ (2 ≤ t ∧ (t : Int) < l + 2) then 1 else 0) ∧
      0 ≤ l ∧ l ≤ k ∧ (M 0 1 = 1 ∨ u = l) := by
    by_cases hk : k = 0
    · have hl : l = 0 := by omega
      subst hk hl
      have hz := h.deg 1 (by omega)
      rw [Finset.sum_eq_zero_iff_of_nonneg (fun t _ => h.nonneg 1 t)] at hz
      have hz0 : ∀ t < v, M 0 t = 0 := by
        intro t ht; rw [hr t ht, if_neg (by omega)]
      refine ⟨?_, le_refl _, le_refl _, Or.inr ?_⟩
      · intro t ht h0
        rw [hz t (Finset.mem_range.2 ht), if_neg (by omega)]
      · rw [hz0 1 (by omega), if_neg (by omega)] at hin
        rw [← hin]
        apply Finset.sum_eq_zero
        intro t ht
        rw [hz0 t (Finset.mem_range.1 ht), zero_mul]
    · obtain ⟨K, rfl⟩ : ∃ K : Nat, k = K := ⟨k.toNat, by omega⟩
      have hK : 1 ≤ K := by omega
      have hKv : K + 1 ≤ v := by omega
      have h01 : M 0 1 = 1 := by rw [hr 1 (by omega), if_pos (by omega)]
      have h11 : M 1 1 = 0 := h.diag 1 (by omega)
      rw [if_pos h01] at hin
      obtain ⟨c, c1, c2, c3, c4⟩ := threshold (f := M 1) (h.bin 1) (a := 2) (b := K + 1) (by omega)
        (by
          intro i j hi hij hj
          apply hlj i j (by omega) hij (by omega)
          rw [hr i (by omega), hr j (by omega), if_pos (by omega), if_pos (by omega)])
      obtain ⟨d, d1, d2, d3, d4⟩ := threshold (f := M 1) (h.bin 1) (a := K + 1) (b := v) (by omega)
        (by
          intro i j hi hij hj
          apply hlj i j (by omega) hij (by omega)
          rw [hr i (by omega), hr j (by omega), if_neg (by omega), if_neg (by omega)])
      have s1 : ∑ t ∈ Ico 1 (K + 1), M 1 t = (c : Int) - 2 := by
        rw [Finset.sum_eq_sum_Ico_succ_bot (by omega), h11, c3]; push_cast; omega
      have s2 : ∑ t ∈ range v, M 1 t = 1 + ((c : Int) - 2) + ((d : Int) - (K + 1)) := by
        rw [range_split v (by omega), ← Finset.sum_Ico_consecutive _ (show 1 ≤ K + 1 by omega) hKv,
          s1, d3, h10, h01]
        push_cast; omega
      have s3 : ∑ t ∈ range v, M 0 t * M 1 t = (c : Int) - 2 := by
        rw [range_split v (by omega), ← Finset.sum_Ico_consecutive _ (show 1 ≤ K + 1 by omega) hKv,
          h.diag 0 (by omega)]
        have e1 : ∑ t ∈ Ico 1 (K + 1), M 0 t * M 1 t = ∑ t ∈ Ico 1 (K + 1), M 1 t := by
          apply Finset.sum_congr rfl
          intro t ht
          rw [Finset.mem_Ico] at ht
          rw [hr t (by omega), if_pos (by omega), one_mul]
        have e2 : ∑ t ∈ Ico (K + 1) v, M 0 t * M 1 t = 0 := by
          apply Finset.sum_eq_zero
          intro t ht
          rw [Finset.mem_Ico] at ht
          rw [hr t (by omega), if_neg (by omega), zero_mul]
        rw [e1, e2, s1]; omega
      rw [h.deg 1 (by omega)] at s2
      rw [s3] at hin
      refine ⟨?_, by omega, by omega, Or.inl h01⟩
      intro t ht ht0
      by_cases ht1 : t = 1
      · subst ht1; rw [h11, if_neg (by omega)]
      · by_cases htK : t < K + 1
        · rw [c4 t (by omega) htK]
          by_cases hc : t < c
          · rw [if_pos hc, if_pos (by omega)]
          · rw [if_neg hc, if_neg (by omega)]
        · rw [d4 t (by omega) ht]
          by_cases hc : t < d
          · rw [if_pos hc, if_pos (by omega)]
          · rw [if_neg hc, if_neg (by omega)]
  obtain ⟨hm, hl0, hlk, hu⟩ := hmain
  refine ⟨?_, hu⟩
  apply Bounds.ext_getD (by rw [rowAt_length, seed1_length])
  intro t
  by_cases ht : t < v
  · by_cases ht0 : t = 0
    · subst ht0
      rw [seed1_getD_zero ht, rowAt_getD ht, h10, ← hrow0, rowAt_getD (by omega)]
    · rw [rowAt_getD ht, seed1_getD ht hv ht0, hm t ht ht0, pyIdx_nonneg (by omega),
        pyIdx_nonneg (by omega), pyIdx_nonneg (by omega)]
      by_cases c : (k + 1 ≤ (t : Int) ∧ (t : Int) < 2 * k - l) ∨ (2 ≤ t ∧ (t : Int) < l + 2)
      · rw [if_pos c, if_pos (by omega)]
      · rw [if_neg c, if_neg (by omega)]
  · rw [List.getD_eq_default _ _ (by rw [rowAt_length]; omega),
      List.getD_eq_default _ _ (by rw [seed1_length]; omega)]

theorem leftJustified_congr {v : Nat} {m : Mat} {r : Vec} {m' : Mat} {r' : Vec} (hm : m = m')
    (hr : r = r') (h : Spec.LeftJustified v m r) : Spec.LeftJustified v m' r' := by
  subst hm hr; exact h

/-- Every strongly regular array has a relabelled copy starting with the seed rows. -/
theorem exists_seed {v : Nat} {k l u : Int} {M : Nat → Nat → Int} (h : Arr v k l u M) (hv : 2 ≤ v)
    (hkl : 0 < k ∨ l = 0) : ∃ M', Rel v M M' ∧ matOf v M' 2 = [seed0 v k, seed1 v k l] ∧
      (M' 0 1 = 1 ∨ u = l) := by
  obtain ⟨M1, r1, -, j1⟩ := exists_leftJustified (R := 0)
    (∑ t ∈ range v, (t : Int) * M 0 t).toNat M h (by omega)
  have h1 := r1.arr h
  obtain ⟨M2, r2, e2, j2⟩ := exists_leftJustified (R := 1)
    (∑ t ∈ range v, (t : Int) * M1 1 t).toNat M1 h1 (by omega)
  have h2 := r2.arr h1
  have e0 : rowAt v M2 0 = rowAt v M1 0 := by
    have : (matOf v M2 1).getD 0 [] = (matOf v M1 1).getD 0 [] := by rw [e2]
    rwa [matOf_getD (by omega), matOf_getD (by omega)] at this
  have j0 : Spec.LeftJustified v (matOf v M2 0) (rowAt v M2 0) :=
    leftJustified_congr rfl e0.symm j1
  obtain ⟨f1, f2⟩ := rowAt1_seed h2 hv hkl j0 j2
  refine ⟨M2, r1.trans r2, ?_, f2⟩
  show [rowAt v M2 0, rowAt v M2 1] = _
  rw [rowAt0_seed h2 hv j0, f1]

/-- The search reaches a relabelled copy of every strongly regular array. -/
theorem solve_found {v : Nat} {k l u : Int} {M : Nat → Nat → Int} (h : Arr v k l u M) (hv : 3 ≤ v)
    (hv' : v ≤ 66) (hkl : 0 < k ∨ l = 0) :
    ∃ out, solve [seed0 v k, seed1 v k l] = .ok out ∧ ∃ M', Rel v M M' ∧ matOf v M' v ∈ out := by
  -- normalise `u` when the graph is complete
  obtain ⟨u', h', hdeg, hu0, hu1⟩ : ∃ u', Arr v k l u' M ∧ ((v : Int) = k + 1 → u' = 0) ∧
      0 ≤ u' ∧ u' ≤ 127 := by
    by_cases hk : (v : Int) = k + 1
    · exact ⟨0, h.norm hk, fun _ => rfl, by omega, by omega⟩
    · have := h.u_bounds (by omega) hk
      exact ⟨u, h, fun e => absurd e hk, by omega, by omega⟩
  obtain ⟨M1, r1, e1, hu⟩ := exists_seed h' (by omega) hkl
  have h1 := r1.arr h'
  have hp := (params_matOf h1 (by omega) hu (h'.count (by omega)) hdeg hu0 hu1).vals
    (matOf_part h1 (by omega)) (by simp) hv'
  have hs := solve_eq (seed_part (v := v) (by omega) k l) (by simp) (by simp; omega) hv'
  refine ⟨_, hs, ?_⟩
  obtain ⟨M2, r2, hm⟩ := levels_found hv' (v - 2) 2 [[seed0 v k, seed1 v k l]] M1 (le_refl 2)
    (by omega) h1 (by rw [e1]; exact seed_adjacent (by omega) k l) hp (by rw [e1]; simp)
  refine ⟨M2, r1.trans r2, ?_⟩
  rw [show 2 + (v - 2) = v by omega] at hm
  exact hm

end TDS
