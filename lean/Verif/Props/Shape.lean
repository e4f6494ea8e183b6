import Verif.Props.Search
import Verif.Model.Main

/-! C03 and C32 for arbitrary parameters. -/

namespace Spec

/-- Position `n` of a sequence of length `v` is in the slice `i:j`.  A negative bound is compared with the
position counted from the end. -/
def InSlice (v : Nat) (i j : Int) (n : Nat) : Prop :=
  (if i < 0 then i ≤ (n : Int) - v else i ≤ n) ∧ (if j < 0 then (n : Int) - v < j else (n : Int) < j)

end Spec

namespace TDS

theorem inSlice_iff {v n : Nat} {i j : Int} (hn : n < v) :
    Spec.InSlice v i j n ↔ pyIdx v i ≤ n ∧ n < pyIdx v j := by
  unfold Spec.InSlice pyIdx
  split_ifs <;> omega

/-- C32 without any condition on `k`, `l`, `u`: the ones of the seed are those of the three slices, and its
first column copies the first row. -/
theorem C32_slices {v : Nat} (hv : 2 ≤ v) (k l u : Int) : ∃ r₀ r₁ : Vec, seed v k l u = .ok [r₀, r₁] ∧
    r₀.length = v ∧ r₁.length = v ∧ (∀ x ∈ r₀ ++ r₁, x = 0 ∨ x = 1) ∧
    (∀ n < v, r₀.getD n 0 = 1 ↔ Spec.InSlice v 1 (k + 1) n) ∧ r₁.getD 0 0 = r₀.getD 1 0 ∧
    ∀ n < v, n ≠ 0 →
      (r₁.getD n 0 = 1 ↔ Spec.InSlice v 2 (l + 2) n ∨ Spec.InSlice v (k + 1) (2 * k - l) n) := by
  have p1 : pyIdx v 1 = 1 := by unfold pyIdx; simp; omega
  have p2 : pyIdx v 2 = 2 := by unfold pyIdx; simp; omega
  have b0 : ∀ n < v, (seed0 v k).getD n 0 = 0 ∨ (seed0 v k).getD n 0 = 1 := by
    intro n hn
    rw [seed0_getD hn]
    split <;> simp
  refine ⟨_, _, seed_eq hv k l u, seed0_length v k, seed1_length v k l, ?_, ?_,
    seed1_getD_zero (by omega), ?_⟩
  · intro x hx
    rcases List.mem_append.1 hx with hx | hx
    · obtain ⟨n, hn, rfl⟩ := List.mem_iff_getElem.1 hx
      have := b0 n (by rwa [seed0_length] at hn)
      rwa [List.getD_eq_getElem _ _ hn] at this
    · obtain ⟨n, hn, rfl⟩ := List.mem_iff_getElem.1 hx
      have hn' : n < v := by rwa [seed1_length] at hn
      rw [← List.getD_eq_getElem _ 0 hn]
      by_cases h0 : n = 0
      · subst h0
        rw [seed1_getD_zero (by omega)]
        exact b0 1 (by omega)
      · rw [seed1_getD hn' hv h0]
        split <;> simp
  · intro n hn
    rw [seed0_getD hn, inSlice_iff hn, p1]
    split <;> simp_all
  · intro n hn h0
    rw [seed1_getD hn hv h0, inSlice_iff hn, inSlice_iff hn, p2]
    split
    · rename_i h
      exact iff_of_true rfl h.symm
    · rename_i h
      exact iff_of_false (by simp) (fun h' => h h'.symm)

/-- Non-vacuity: negative bounds count from the end. -/
example : seed 8 (-4) (-5) 0 = .ok [[0, 1, 1, 1, 1, 0, 0, 0], [1, 0, 1, 1, 1, 0, 0, 0]] ∧
    seed 8 3 (-4) 0 = .ok [[0, 1, 1, 1, 0, 0, 0, 0], [1, 0, 1, 1, 1, 1, 1, 1]] := by decide +kernel

theorem seed_diag {v : Nat} {k l : Int} (hv : 3 ≤ v) (hk : 1 ≤ k) :
    (seed1 v k l).getD 1 0 = 0 := by
  rw [seed1_getD (by omega) (by omega) (by omega), if_neg]
  have h1 : pyIdx v (k + 1) = min (k + 1).toNat v := pyIdx_nonneg (by omega)
  have h2 : pyIdx v 2 = 2 := by rw [pyIdx_nonneg (by omega)]; omega
  rw [h1]
  omega

/-- C03 without any condition on `k`, `l`, `u`: the result is a symmetric `v × v` matrix of zeros and
ones that begins with the seed, and only vertex 1 can have a loop.  For positive `k` there is none. -/
theorem C03_general {v : Nat} (hv : 3 ≤ v) (hv' : v ≤ 66) {k l u : Int} {out : List Mat}
    (h : IsOutput v k l u out) : ∀ m ∈ out, Spec.Part v m ∧ m.length = v ∧
      seed v k l u = .ok (m.take 2) ∧ (∀ i < v, ∀ j < v, Spec.ent m i j = Spec.ent m j i) ∧
      (∀ i < v, i ≠ 1 → Spec.ent m i i = 0) ∧ (1 ≤ k → Spec.IsAdj v m) := by
  have hsym : ∀ i < 2, ∀ j < 2,
      Spec.ent [seed0 v k, seed1 v k l] i j = Spec.ent [seed0 v k, seed1 v k l] j i := by
    have e01 : (seed0 v k).getD 1 0 = (seed1 v k l).getD 0 0 := by
      rw [seed1_getD_zero (by omega)]
    intro i hi j hj
    obtain rfl | rfl : i = 0 ∨ i = 1 := by omega
    · obtain rfl | rfl : j = 0 ∨ j = 1 := by omega
      · rfl
      · exact e01
    · obtain rfl | rfl : j = 0 ∨ j = 1 := by omega
      · exact e01.symm
      · rfl
  have hdiag : ∀ i < 2, i ≠ 1 →
      Spec.ent [seed0 v k, seed1 v k l] i i = 0 := by
    intro i hi hne
    obtain rfl : i = 0 := by omega
    show (seed0 v k).getD 0 0 = 0
    rw [seed0_getD (by omega)]; simp
  intro m hm
  obtain ⟨h1, h2, h3, h4, h5⟩ := h.induction hv hv'
    (I := fun m => (∀ i < m.length, ∀ j < m.length, Spec.ent m i j = Spec.ent m j i) ∧
      (∀ i < m.length, i ≠ 1 → Spec.ent m i i = 0) ∧ m.take 2 = [seed0 v k, seed1 v k l])
    ⟨hsym, hdiag, rfl⟩ (by
      intro m hp h2 hlt ⟨hs, hd, ht⟩ m' hm'
      obtain ⟨x, rfl, -⟩ := (adv_ext hp h2 hlt hv' hm').ex
      have hl : (m ++ [Spec.nextRow m x]).length = m.length + 1 := by simp
      refine ⟨?_, ?_, by rw [List.take_append_of_le_length h2, ht]⟩
      · intro i hi j hj
        rw [hl] at hi hj
        by_cases h1 : i < m.length
        · by_cases h2 : j < m.length
          · rw [ent_append_left h1, ent_append_left h2]; exact hs i h1 j h2
          · obtain rfl : j = m.length := by omega
            rw [ent_append_left h1, ent_append_last, nextRow_getD_lt h1]
        · obtain rfl : i = m.length := by omega
          by_cases h2 : j < m.length
          · rw [ent_append_left h2, ent_append_last, nextRow_getD_lt h2]
          · obtain rfl : j = m.length := by omega
            rfl
      · intro i hi hne
        rw [hl] at hi
        by_cases h1 : i < m.length
        · rw [ent_append_left h1]; exact hd i h1 hne
        · obtain rfl : i = m.length := by omega
          rw [ent_append_last, nextRow_getD_diag]) m hm
  rw [h2] at h3 h4
  have hseed : seed v k l u = .ok (m.take 2) := by rw [h5, seed_eq (by omega)]
  refine ⟨h1, h2, hseed, h3, h4, fun hk => ⟨h1, h2, ?_, by rw [h2]; exact h3⟩⟩
  intro i hi
  rw [h2] at hi
  by_cases hne : i = 1
  · subst hne
    have : m.getD 1 [] = seed1 v k l := by
      have e : (m.take 2).getD 1 [] = m.getD 1 [] := by
        rw [List.getD_eq_getElem _ _ (by simp; omega), List.getD_eq_getElem _ _ (by omega)]
        simp
      rw [← e, h5]
      rfl
    show (m.getD 1 []).getD 1 0 = 0
    rw [this]
    exact seed_diag hv hk
  · exact h4 i hi hne

/-- For `k = 0` and negative `l` the loop occurs: `python -m srg 5 0 -2 0` passes the check of the
parameters and prints a matrix that is not the adjacency matrix of a graph. -/
theorem C03_loop : main (["5", "0", "-2", "0"].map String.toList) =
    .ok [[[0, 0, 0, 0, 0], [0, 1, 0, 0, 0], [0, 0, 0, 0, 0], [0, 0, 0, 0, 0], [0, 0, 0, 0, 0]]] := by
  decide +kernel

/-- The check of the parameters lets negative `l` through: `python -m srg 6 4 -4 28` prints the
octahedron, whose parameters are `(6, 4, 2, 4)`. -/
theorem C38_negative : ∃ m, main (["6", "4", "-4", "28"].map String.toList) = .ok [m] ∧
    Spec.IsSRG 6 4 2 4 m ∧ ¬ Spec.IsSRG 6 4 (-4) 28 m := by
  refine ⟨[[0, 1, 1, 1, 1, 0], [1, 0, 1, 1, 0, 1], [1, 1, 0, 0, 1, 1], [1, 1, 0, 0, 1, 1],
    [1, 0, 1, 1, 0, 1], [0, 1, 1, 1, 1, 0]], by decide +kernel, ?_, fun h => absurd h.meet (by decide)⟩
  exact ⟨⟨⟨by decide, by unfold Spec.Bin; decide, by decide⟩, rfl, ⟨by decide, by decide⟩⟩,
    by decide, by decide⟩

/-- Non-vacuity: results for `l < 0` and for `l ≥ k`, which `C03_structure` leaves out. -/
example : (seed 6 4 (-4) 28 >>= solve).map List.length = .ok 1 ∧
    (seed 6 5 6 0 >>= solve).map List.length = .ok 1 := by decide +kernel

end TDS
