import Verif.Proof.Levels

/-! The two seed rows. -/

namespace TDS

@[simp] theorem setSlice_length (a : Vec) (i j : Int) : (setSlice a i j).length = a.length := by
  simp [setSlice]

theorem setSlice_getD {a : Vec} {i j : Int} {n : Nat} (h : n < a.length) :
    (setSlice a i j).getD n 0 =
      if pyIdx a.length i ≤ n ∧ n < pyIdx a.length j then 1 else a.getD n 0 := by
  unfold setSlice
  rw [List.getD_eq_getElem _ _ (by simpa using h), List.getD_eq_getElem _ _ h]
  simp

theorem pyIdx_nonneg {n : Nat} {i : Int} (h : 0 ≤ i) : pyIdx n i = min i.toNat n := by
  unfold pyIdx; rw [if_neg (by omega)]

/-- First seed row. -/
def seed0 (v : Nat) (k : Int) : Vec := setSlice (List.replicate v 0) 1 (k + 1)

/-- Second seed row. -/
def seed1 (v : Nat) (k l : Int) : Vec :=
  (setSlice (setSlice (List.replicate v 0) 2 (l + 2)) (k + 1) (k + (k - l - 1) + 1)).set 0
    ((seed0 v k).getD 1 0)

theorem seed_eq {v : Nat} (hv : 2 ≤ v) (k l u : Int) :
    seed v k l u = .ok [seed0 v k, seed1 v k l] := by
  unfold seed
  rw [if_neg (by omega), if_neg (by omega)]
  rfl

theorem seed0_length (v : Nat) (k : Int) : (seed0 v k).length = v := by simp [seed0]
theorem seed1_length (v : Nat) (k l : Int) : (seed1 v k l).length = v := by simp [seed1]

theorem seed0_getD {v : Nat} {k : Int} {n : Nat} (hn : n < v) :
    (seed0 v k).getD n 0 = if 1 ≤ n ∧ n < pyIdx v (k + 1) then 1 else 0 := by
  unfold seed0
  rw [setSlice_getD (by simpa using hn), List.length_replicate]
  have h1 : pyIdx v 1 = 1 ∨ (pyIdx v 1 = 0 ∧ v = 0) := by unfold pyIdx; simp; omega
  have : (List.replicate v (0 : Int)).getD n 0 = 0 := by
    rw [List.getD_eq_getElem _ _ (by simpa using hn)]; simp
  rw [this]
  rcases h1 with h1 | h1
  · rw [h1]
  · omega

theorem seed1_getD {v : Nat} {k l : Int} {n : Nat} (hn : n < v) (h2 : 2 ≤ v) (hn0 : n ≠ 0) :
    (seed1 v k l).getD n 0 =
      if (pyIdx v (k + 1) ≤ n ∧ n < pyIdx v (2 * k - l)) ∨ (2 ≤ n ∧ n < pyIdx v (l + 2)) then 1
      else 0 := by
  unfold seed1
  rw [List.getD_eq_getElem?_getD, List.getElem?_set_ne (Ne.symm hn0), ← List.getD_eq_getElem?_getD,
    setSlice_getD (by simpa using hn), setSlice_getD (by simpa using hn)]
  simp only [setSlice_length, List.length_replicate]
  have h1 : pyIdx v 2 = 2 := by unfold pyIdx; simp; omega
  have h3 : k + (k - l - 1) + 1 = 2 * k - l := by omega
  have : (List.replicate v (0 : Int)).getD n 0 = 0 := by
    rw [List.getD_eq_getElem _ _ (by simpa using hn)]; simp
  rw [this, h1, h3]
  split
  · rename_i h; rw [if_pos (Or.inl h)]
  · rename_i h
    split
    · rename_i h'; rw [if_pos (Or.inr h')]
    · rename_i h'; rw [if_neg (by tauto)]

theorem seed1_getD_zero {v : Nat} {k l : Int} (hv : 0 < v) :
    (seed1 v k l).getD 0 0 = (seed0 v k).getD 1 0 := by
  unfold seed1
  rw [List.getD_eq_getElem?_getD, List.getElem?_set_self (by simpa using hv)]
  rfl

theorem bin_of_getD {r : Vec} (h : ∀ n < r.length, r.getD n 0 = 0 ∨ r.getD n 0 = 1) : Bin r := by
  intro a ha
  obtain ⟨n, hn, rfl⟩ := List.getElem_of_mem ha
  have := h n hn
  rwa [List.getD_eq_getElem _ _ hn] at this

theorem seed0_bin (v : Nat) (k : Int) : Bin (seed0 v k) := by
  apply bin_of_getD
  intro n hn
  rw [seed0_length] at hn
  rw [seed0_getD hn]
  split <;> simp

theorem seed1_bin {v : Nat} (hv : 2 ≤ v) (k l : Int) : Bin (seed1 v k l) := by
  apply bin_of_getD
  intro n hn
  rw [seed1_length] at hn
  by_cases h0 : n = 0
  · subst h0
    rw [seed1_getD_zero hn]
    exact (seed0_bin v k).getD 1
  · rw [seed1_getD hn hv h0]
    split <;> simp

theorem seed_part {v : Nat} (hv : 2 ≤ v) (k l : Int) : Spec.Part v [seed0 v k, seed1 v k l] := by
  refine ⟨?_, ?_, by simpa using hv⟩
  · intro r hr
    simp only [List.mem_cons, List.not_mem_nil, or_false] at hr
    rcases hr with rfl | rfl
    · exact seed0_length v k
    · exact seed1_length v k l
  · intro r hr
    simp only [List.mem_cons, List.not_mem_nil, or_false] at hr
    rcases hr with rfl | rfl
    · exact seed0_bin v k
    · exact seed1_bin hv k l

theorem seed_adjacent {v : Nat} (hv : 2 ≤ v) (k l : Int) :
    Spec.Adjacent v [seed0 v k, seed1 v k l] := by
  intro i a b hi hia hab hb he r hr
  simp only [List.length_cons, List.length_nil] at hi
  have h0 := he (seed0 v k) (by simp)
  have h1 := he (seed1 v k l) (by simp)
  rw [seed0_getD (by omega), seed0_getD (by omega)] at h0
  rw [seed1_getD (by omega) hv (by omega), seed1_getD (by omega) hv (by omega)] at h1
  simp only [List.mem_cons, List.not_mem_nil, or_false] at hr
  generalize hK : pyIdx v (k + 1) = K at *
  generalize hL : pyIdx v (l + 2) = L at *
  generalize hM : pyIdx v (2 * k - l) = M at *
  have key : ((1 ≤ i ∧ i < K) ↔ (1 ≤ b ∧ b < K)) := by
    by_cases c1 : (1 ≤ i ∧ i < K) <;> by_cases c2 : (1 ≤ b ∧ b < K)
    · exact iff_of_true c1 c2
    · rw [if_pos c1, if_neg c2] at h0; simp at h0
    · rw [if_neg c1, if_pos c2] at h0; simp at h0
    · exact iff_of_false c1 c2
  have key1 : (((K ≤ i ∧ i < M) ∨ (2 ≤ i ∧ i < L)) ↔ ((K ≤ b ∧ b < M) ∨ (2 ≤ b ∧ b < L))) := by
    by_cases c1 : ((K ≤ i ∧ i < M) ∨ (2 ≤ i ∧ i < L)) <;>
      by_cases c2 : ((K ≤ b ∧ b < M) ∨ (2 ≤ b ∧ b < L))
    · exact iff_of_true c1 c2
    · rw [if_pos c1, if_neg c2] at h1; simp at h1
    · rw [if_neg c1, if_pos c2] at h1; simp at h1
    · exact iff_of_false c1 c2
  rcases hr with rfl | rfl
  · rw [seed0_getD (by omega), seed0_getD (by omega), hK]
    have : (1 ≤ i ∧ i < K) ↔ (1 ≤ a ∧ a < K) := by omega
    simp only [this]
  · rw [seed1_getD (by omega) hv (by omega), seed1_getD (by omega) hv (by omega), hK, hL, hM]
    have : ((K ≤ i ∧ i < M) ∨ (2 ≤ i ∧ i < L)) ↔ ((K ≤ a ∧ a < M) ∨ (2 ≤ a ∧ a < L)) := by omega
    simp only [this]

theorem seed_sym {v : Nat} {k l : Int} (hv : 2 ≤ v) (hkl : (0 ≤ l ∧ l < k) ∨ (k = 0 ∧ l = 0)) :
    Spec.SymPart [seed0 v k, seed1 v k l] := by
  have e00 : Spec.ent [seed0 v k, seed1 v k l] 0 0 = 0 := by
    show (seed0 v k).getD 0 0 = 0
    rw [seed0_getD (by omega)]; simp
  have e11 : Spec.ent [seed0 v k, seed1 v k l] 1 1 = 0 := by
    show (seed1 v k l).getD 1 0 = 0
    rw [seed1_getD (by omega) hv (by omega), if_neg]
    rcases hkl with h | h
    · rw [pyIdx_nonneg (by omega), pyIdx_nonneg (by omega)]; omega
    · rw [pyIdx_nonneg (by omega), pyIdx_nonneg (by omega)]; omega
  have e01 : Spec.ent [seed0 v k, seed1 v k l] 0 1 = Spec.ent [seed0 v k, seed1 v k l] 1 0 := by
    show (seed0 v k).getD 1 0 = (seed1 v k l).getD 0 0
    rw [seed1_getD_zero (by omega)]
  refine ⟨?_, ?_⟩
  · intro i hi
    simp only [List.length_cons, List.length_nil] at hi
    obtain rfl | rfl : i = 0 ∨ i = 1 := by omega
    · exact e00
    · exact e11
  · intro i hi j hj
    simp only [List.length_cons, List.length_nil] at hi hj
    obtain rfl | rfl : i = 0 ∨ i = 1 := by omega
    · obtain rfl | rfl : j = 0 ∨ j = 1 := by omega
      · rfl
      · exact e01
    · obtain rfl | rfl : j = 0 ∨ j = 1 := by omega
      · exact e01.symm
      · rfl

end TDS
