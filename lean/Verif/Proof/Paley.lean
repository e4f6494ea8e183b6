import Verif.Proof.Family
import Mathlib.NumberTheory.JacobiSum.Basic
import Mathlib.NumberTheory.LegendreSymbol.QuadraticChar.Basic

/-! Paley graphs are strongly regular. -/

namespace TDS

open Finset

section

variable {F : Type*} [Field F] [Fintype F] [DecidableEq F]

theorem char_shift (hF : ringChar F ≠ 2) (a b : F) (hab : a ≠ b) :
    ∑ c, quadraticChar F (a - c) * quadraticChar F (b - c) = -1 := by
  have hd : a - b ≠ 0 := sub_ne_zero.2 hab
  let e : F ≃ F := (Equiv.mulLeft₀ (a - b) hd).trans (Equiv.subLeft a)
  rw [← e.sum_comp]
  have h1 : ∀ x, quadraticChar F (a - e x) * quadraticChar F (b - e x) =
      quadraticChar F (-1) * (quadraticChar F x * quadraticChar F (1 - x)) := by
    intro x
    have e1 : a - e x = (a - b) * x := by simp [e]
    have e2 : b - e x = -1 * ((a - b) * (1 - x)) := by simp [e]; ring
    rw [e1, e2, map_mul, map_mul, map_mul]
    have := quadraticChar_sq_one hd
    linear_combination (quadraticChar F (-1) * quadraticChar F x * quadraticChar F (1 - x)) * this
  rw [sum_congr rfl (fun x _ => h1 x), ← mul_sum]
  have hJ := jacobiSum_nontrivial_inv (quadraticChar_ne_one hF)
  rw [(quadraticChar_isQuadratic F).inv] at hJ
  rw [show ∑ i, quadraticChar F i * quadraticChar F (1 - i) = jacobiSum (quadraticChar F) (quadraticChar F) from rfl,
    hJ]
  have := quadraticChar_sq_one (F := F) (a := -1) (by simp)
  linear_combination -this

theorem paley_srg (h : IsSquare (-1 : F)) (hF : ringChar F ≠ 2) [DecidableRel (Spec.paley F h).Adj] {n : Nat}
    (hn : Fintype.card F = 4 * n + 1) :
    (Spec.paley F h).IsSRGWith (4 * n + 1) (2 * n) (n - 1) n := by
  have hn' : ((univ : Finset F).card : ℤ) = 4 * n + 1 := by rw [card_univ, hn]; push_cast; ring
  have hs : ∀ a : F, ∑ c, quadraticChar F (a - c) = 0 := by
    intro a
    refine Eq.trans ((Equiv.subLeft a).sum_comp (fun x => quadraticChar F x)) ?_
    exact MulChar.sum_eq_zero_of_ne_one (quadraticChar_ne_one hF)
  have hsym : ∀ a b : F, quadraticChar F (a - b) = quadraticChar F (b - a) := by
    intro a b
    rw [← neg_sub b a, ← neg_one_mul, map_mul, (quadraticChar_one_iff_isSquare (by simp)).2 h, one_mul]
  -- twice the indicator of adjacency
  have hind : ∀ a c : F, (if (Spec.paley F h).Adj a c then (2 : ℤ) else 0) =
      1 + quadraticChar F (a - c) - if a = c then 1 else 0 := by
    intro a c
    by_cases hac : a = c
    · subst hac
      simp
    · rw [if_neg hac]
      have hd : a - c ≠ 0 := sub_ne_zero.2 hac
      by_cases hsq : IsSquare (a - c)
      · rw [if_pos ⟨hac, hsq⟩, (quadraticChar_one_iff_isSquare hd).2 hsq]
        norm_num
      · rw [if_neg (fun hh => hsq hh.2), (quadraticChar_neg_one_iff_not_isSquare).2 hsq]
        norm_num
  have hdeg : ∀ a : F, (2 : ℤ) * #{c | (Spec.paley F h).Adj a c} = 4 * n := by
    intro a
    have : ∑ c, (if (Spec.paley F h).Adj a c then (2 : ℤ) else 0) = 2 * #{c | (Spec.paley F h).Adj a c} := by
      rw [← sum_filter, sum_const, nsmul_eq_mul, mul_comm]
    rw [← this, sum_congr rfl (fun c _ => hind a c), sum_sub_distrib, sum_add_distrib, hs]
    simp only [sum_const, nsmul_eq_mul, mul_one, sum_ite_eq, mem_univ, if_true, hn']
    ring
  have hcom : ∀ a b : F, a ≠ b → (4 : ℤ) * #{c | (Spec.paley F h).Adj a c ∧ (Spec.paley F h).Adj b c} =
      4 * n - 2 - 2 * quadraticChar F (a - b) := by
    intro a b hab
    have : ∑ c, (if (Spec.paley F h).Adj a c then (2 : ℤ) else 0) * (if (Spec.paley F h).Adj b c then (2 : ℤ) else 0) =
        4 * #{c | (Spec.paley F h).Adj a c ∧ (Spec.paley F h).Adj b c} := by
      have e : ∀ c, (if (Spec.paley F h).Adj a c then (2 : ℤ) else 0) *
          (if (Spec.paley F h).Adj b c then (2 : ℤ) else 0) =
          if (Spec.paley F h).Adj a c ∧ (Spec.paley F h).Adj b c then 4 else 0 := by
        intro c
        by_cases h1 : (Spec.paley F h).Adj a c <;> by_cases h2 : (Spec.paley F h).Adj b c <;> simp [h1, h2]
      rw [sum_congr rfl (fun c _ => e c), ← sum_filter, sum_const, nsmul_eq_mul, mul_comm]
    rw [← this]
    have e : ∀ c, (if (Spec.paley F h).Adj a c then (2 : ℤ) else 0) *
        (if (Spec.paley F h).Adj b c then (2 : ℤ) else 0) =
        1 + quadraticChar F (a - c) + quadraticChar F (b - c) + quadraticChar F (a - c) * quadraticChar F (b - c)
          - (if a = c then 1 + quadraticChar F (b - a) else 0) - (if b = c then 1 + quadraticChar F (a - b) else 0) := by
      intro c
      rw [hind, hind]
      by_cases h1 : a = c
      · subst h1
        simp [Ne.symm hab]
      · by_cases h2 : b = c
        · subst h2
          simp [h1]
        · simp only [h1, h2, if_false]
          ring
    rw [sum_congr rfl (fun c _ => e c)]
    simp only [sum_sub_distrib, sum_add_distrib, hs, char_shift hF a b hab, sum_ite_eq, mem_univ, if_true,
      sum_const, nsmul_eq_mul, mul_one, hn', hsym b a]
    ring
  refine ⟨hn, ?_, ?_, ?_⟩
  · intro a
    rw [degree_card]
    have := hdeg a
    omega
  · intro a b hab
    rw [commonNeighbors_card]
    have h1 := hcom a b hab.1
    rw [(quadraticChar_one_iff_isSquare (sub_ne_zero.2 hab.1)).2 hab.2] at h1
    omega
  · intro a b hne hab
    rw [commonNeighbors_card]
    have h1 := hcom a b hne
    rw [(quadraticChar_neg_one_iff_not_isSquare).2 (fun hs => hab ⟨hne, hs⟩)] at h1
    omega

end

end TDS
