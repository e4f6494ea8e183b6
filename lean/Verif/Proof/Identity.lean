import Verif.Props.Utils

/-! Matrices with `M M = (l - u) M + (k - u) I + u J`. -/

namespace TDS

open Finset

variable {n : Type*} [Fintype n] [DecidableEq n]

/-- The matrix identity, entrywise. -/
def Quad (k l u : Int) (M : n → n → Int) : Prop :=
  ∀ i j, ∑ t, M i t * M t j = (l - u) * M i j + (k - u) * (if i = j then 1 else 0) + u

/-- Zero-one with zero diagonal. -/
structure Simple (M : n → n → Int) : Prop where
  bin : ∀ i j, M i j = 0 ∨ M i j = 1
  diag : ∀ i, M i i = 0

theorem Simple.le_row {M : n → n → Int} (h : Simple M) (i t : n) : M i t * M t i ≤ M i t := by
  rcases h.bin i t with e | e <;> rcases h.bin t i with e' | e' <;> simp [e, e']

theorem Quad.diag {k l u : Int} {M : n → n → Int} (hq : Quad k l u M) (h : Simple M) (i : n) :
    ∑ t, M i t * M t i = k := by
  rw [hq i i, h.diag, if_pos rfl]
  ring

/-- Rows with `k` ones make the matrix symmetric. -/
theorem Quad.symm_of_deg {k l u : Int} {M : n → n → Int} (hq : Quad k l u M) (h : Simple M)
    (hd : ∀ i, ∑ t, M i t = k) (i j : n) : M i j = M j i := by
  have key : ∀ i t, M i t * M t i = M i t := by
    intro i t
    have := (Finset.sum_eq_sum_iff_of_le (s := univ) (fun t _ => h.le_row i t)).1
      ((hq.diag h i).trans (hd i).symm)
    exact this t (mem_univ t)
  rw [← key i j, mul_comm, key j i]

/-- Row sums and column sums agree when `u` is not zero. -/
theorem Quad.sums {k l u : Int} {M : n → n → Int} (hq : Quad k l u M) (hu : u ≠ 0) (i j : n) :
    ∑ t, M i t = ∑ t, M t j := by
  have e : ∑ s, (∑ t, M i t * M t s) * M s j = ∑ t, M i t * ∑ s, M t s * M s j := by
    simp only [Finset.sum_mul, Finset.mul_sum]
    rw [Finset.sum_comm]
    refine Finset.sum_congr rfl fun t _ => Finset.sum_congr rfl fun s _ => by ring
  have h1 : ∑ s, (∑ t, M i t * M t s) * M s j =
      (l - u) * ∑ s, M i s * M s j + (k - u) * M i j + u * ∑ s, M s j := by
    rw [Finset.mul_sum, Finset.mul_sum]
    have : (k - u) * M i j = ∑ s, (k - u) * (if i = s then M s j else 0) := by
      rw [← Finset.mul_sum, Finset.sum_ite_eq]
      simp
    rw [this, ← Finset.sum_add_distrib, ← Finset.sum_add_distrib]
    refine Finset.sum_congr rfl fun s _ => ?_
    rw [hq i s]
    by_cases his : i = s <;> simp [his] <;> ring
  have h2 : ∑ t, M i t * ∑ s, M t s * M s j =
      (l - u) * ∑ s, M i s * M s j + (k - u) * M i j + u * ∑ s, M i s := by
    rw [Finset.mul_sum, Finset.mul_sum]
    have : (k - u) * M i j = ∑ s, (k - u) * (if s = j then M i s else 0) := by
      rw [← Finset.mul_sum, Finset.sum_ite_eq']
      simp
    rw [this, ← Finset.sum_add_distrib, ← Finset.sum_add_distrib]
    refine Finset.sum_congr rfl fun s _ => ?_
    rw [hq s j]
    by_cases his : s = j <;> simp [his] <;> ring
  rw [h1, h2] at e
  have : u * ∑ s, M s j = u * ∑ s, M i s := by linarith
  exact (mul_left_cancel₀ hu this).symm

/-- All rows have `k` ones when `u` is positive. -/
theorem Quad.deg {k l u : Int} {M : n → n → Int} (hq : Quad k l u M) (h : Simple M) (hu : 0 < u)
    (hk : 0 ≤ k) (hc : ((Fintype.card n : Int) - k - 1) * u = k * (k - l - 1)) (i : n) :
    ∑ t, M i t = k := by
  have hs := fun i j => hq.sums hu.ne' i j
  obtain ⟨d, hd⟩ : ∃ d, ∑ t, M i t = d := ⟨_, rfl⟩
  have hcol : ∀ j, ∑ t, M t j = d := fun j => (hs i j).symm.trans hd
  have hrow : ∀ t, ∑ s, M t s = d := fun t => (hs t i).trans (hcol i)
  have hd0 : 0 ≤ d := by
    rw [← hd]
    exact Finset.sum_nonneg fun t _ => by rcases h.bin i t with e | e <;> simp [e]
  have e : d * d = (l - u) * d + (k - u) + u * (Fintype.card n : Int) := by
    have h1 : ∑ j, ∑ t, M i t * M t j = d * d := by
      rw [Finset.sum_comm]
      simp only [← Finset.mul_sum, hrow]
      rw [← Finset.sum_mul, hd]
    rw [← h1, Finset.sum_congr rfl fun j _ => hq i j, Finset.sum_add_distrib,
      Finset.sum_add_distrib, ← Finset.mul_sum, hd, ← Finset.mul_sum, Finset.sum_ite_eq]
    simp
    ring
  have hcard : (1 : Int) ≤ Fintype.card n := by
    exact_mod_cast Fintype.card_pos_iff.2 ⟨i⟩
  rw [hd]
  by_contra hne
  have h2 : (d - k) * (d + k - (l - u)) = 0 := by linarith [e, hc, mul_comm u (Fintype.card n : Int)]
  have h3 : d + k - (l - u) = 0 := by
    rcases mul_eq_zero.1 h2 with h | h
    · omega
    · exact h
  have h4 : d = l - u - k := by linarith
  have h5 : k * d = -k - u * ((Fintype.card n : Int) - 1) := by rw [h4]; linarith
  have h6 : 0 ≤ k * d := mul_nonneg hk hd0
  have h7 : 0 ≤ u * ((Fintype.card n : Int) - 1) := mul_nonneg hu.le (by linarith)
  have h8 : u * ((Fintype.card n : Int) - 1) = 0 := by linarith
  have hk0 : k = 0 := by linarith
  have h9 : (Fintype.card n : Int) = 1 := by
    rcases mul_eq_zero.1 h8 with h | h <;> linarith
  have hsub : Subsingleton n := Fintype.card_le_one_iff_subsingleton.1 (by exact_mod_cast h9.le)
  apply hne
  rw [← hd, hk0]
  exact Finset.sum_eq_zero fun t _ => by rw [Subsingleton.elim t i, h.diag]

/-- All rows have `k` ones when every other vertex is a neighbour. -/
theorem Quad.deg_of_full {k l u : Int} {M : n → n → Int} (hq : Quad k l u M) (h : Simple M)
    (hk : (Fintype.card n : Int) - 1 ≤ k) (i : n) : ∑ t, M i t = k := by
  have h1 : ∑ t, M i t ≤ (Fintype.card n : Int) - 1 := by
    rw [← Finset.add_sum_erase _ _ (mem_univ i), h.diag, zero_add]
    have : ∑ t ∈ univ.erase i, M i t ≤ ∑ t ∈ univ.erase i, (1 : Int) :=
      Finset.sum_le_sum fun t _ => by rcases h.bin i t with e | e <;> simp [e]
    have hc : (univ.erase i).card = Fintype.card n - 1 := by
      rw [Finset.card_erase_of_mem (mem_univ i), Finset.card_univ]
    rw [Finset.sum_const, hc] at this
    have hpos : 1 ≤ Fintype.card n := Fintype.card_pos_iff.2 ⟨i⟩
    simp only [nsmul_eq_mul, mul_one] at this
    rw [Nat.cast_sub hpos] at this
    exact_mod_cast this
  have h2 := hq.diag h i
  have h3 : ∑ t, M i t * M t i ≤ ∑ t, M i t := Finset.sum_le_sum fun t _ => h.le_row i t
  linarith

theorem isSRG_of_quad {v : Nat} {k l u : Int} {m : Mat} (hs : Spec.Square v m)
    (h : Simple (fun i j : Fin v => Spec.ent m i j))
    (hq : Quad k l u (fun i j : Fin v => Spec.ent m i j))
    (hd : ∀ i : Fin v, ∑ t : Fin v, Spec.ent m i t = k) : Spec.IsSRG v k l u m := by
  have hsym := fun i j => hq.symm_of_deg h hd i j
  refine isSRG_iff.2 ⟨hs, h.bin, h.diag, hsym, hd, ?_⟩
  intro i j hij
  have h1 := hq i j
  simp only [if_neg hij] at h1
  rw [Finset.sum_congr rfl fun t _ => by rw [hsym j t], h1]
  rcases h.bin i j with e | e <;> rw [e] <;> simp

theorem quad_of_isSRG {v : Nat} {k l u : Int} {m : Mat} (h : Spec.IsSRG v k l u m) :
    Quad k l u (fun i j : Fin v => Spec.ent m i j) := by
  obtain ⟨-, hb, hd, hsy, hdeg, hm⟩ := isSRG_iff.1 h
  intro i j
  show ∑ t : Fin v, Spec.ent m i t * Spec.ent m t j =
    (l - u) * Spec.ent m i j + (k - u) * (if i = j then 1 else 0) + u
  have e : ∑ t : Fin v, Spec.ent m i t * Spec.ent m t j =
      ∑ t : Fin v, Spec.ent m i t * Spec.ent m j t :=
    Finset.sum_congr rfl fun t _ => by rw [hsy t j]
  rw [e]
  by_cases hij : i = j
  · subst hij
    have e' : ∑ t : Fin v, Spec.ent m i t * Spec.ent m i t = ∑ t : Fin v, Spec.ent m i t :=
      Finset.sum_congr rfl fun t _ => by rcases hb i t with e | e <;> rw [e] <;> rfl
    rw [if_pos rfl, hd i, e', hdeg]
    ring
  · rw [hm i j hij, if_neg hij]
    rcases hb i j with e | e <;> rw [e] <;> simp

end TDS
