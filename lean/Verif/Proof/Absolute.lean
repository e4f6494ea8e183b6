import Mathlib.LinearAlgebra.Trace
import Mathlib.LinearAlgebra.Projection
import Mathlib.LinearAlgebra.Matrix.Rank
import Mathlib.Data.Sym.Card
import Verif.Proof.Param

/-! The absolute bound for the multiplicities of strongly regular graphs. -/

namespace TDS

open Finset

/-- A symmetric projection of rank `f` with equal diagonal entries, and with two values off the diagonal that do not
occur on it, has at most `f (f + 3) / 2` rows. -/
theorem two_values {v f : Nat} {E : Matrix (Fin v) (Fin v) ℚ} (hE : E * E = E) (hsym : ∀ i j, E i j = E j i)
    (ht : E.trace = f) {e x y : ℚ} (he : ∀ i, E i i = e) (he0 : e ≠ 0) (hx : e ≠ x) (hy : e ≠ y)
    (hxy : ∀ i j, i ≠ j → E i j = x ∨ E i j = y) : 2 * v ≤ f * (f + 3) := by
  have hid : IsIdempotentElem E.toLin' := by
    unfold IsIdempotentElem
    rw [Module.End.mul_eq_comp, ← Matrix.toLin'_mul, hE]
  have htr := (LinearMap.IsIdempotentElem.isProj_range _ hid).trace
  rw [Matrix.trace_toLin'_eq, ht] at htr
  have h2 : Module.finrank ℚ (LinearMap.range E.toLin') = f := by
    exact_mod_cast htr.symm
  set b := Module.finBasisOfFinrankEq ℚ (LinearMap.range E.toLin') h2
  set P : Fin v → Fin f → ℚ := fun i a => (b a : Fin v → ℚ) i with hP
  set Q : Fin f → Fin v → ℚ := fun a j => b.repr ⟨E.toLin' (Pi.single j 1), LinearMap.mem_range_self _ _⟩ a with hQ
  have hfac : ∀ i j, E i j = ∑ a, P i a * Q a j := by
    intro i j
    have := b.sum_repr ⟨E.toLin' (Pi.single j 1), LinearMap.mem_range_self _ _⟩
    have := congrFun (congrArg Subtype.val this) i
    simp only [AddSubmonoidClass.coe_finsetSum, Submodule.coe_smul, Finset.sum_apply, Pi.smul_apply,
      smul_eq_mul] at this
    have he : (E.toLin' (Pi.single j 1)) i = E i j := by
      rw [Matrix.toLin'_apply, Matrix.mulVec_single_one, Matrix.col_apply]
    rw [he] at this
    rw [← this]
    exact Finset.sum_congr rfl fun a _ => mul_comm _ _
  have hsqr : ∀ i j, E i j * E i j = ∑ p : Fin f × Fin f, P i p.1 * P i p.2 * (Q p.1 j * Q p.2 j) := by
    intro i j
    rw [hfac, Finset.sum_mul_sum, ← Fintype.sum_prod_type']
    exact Finset.sum_congr rfl fun p _ => by ring
  -- the quadratic form with value `e` at every row of `P`
  set G : Fin f × Fin f → ℚ := fun p => ∑ t, Q p.1 t * Q p.2 t with hG
  have hform : ∀ i, e = ∑ p : Fin f × Fin f, P i p.1 * P i p.2 * G p := by
    intro i
    have h1 : E i i = ∑ t, E i t * E i t := by
      conv_lhs => rw [← hE]
      rw [Matrix.mul_apply]
      exact Finset.sum_congr rfl fun t _ => by rw [hsym t i]
    rw [← he i, h1, Finset.sum_congr rfl fun t _ => hsqr i t, Finset.sum_comm]
    exact Finset.sum_congr rfl fun p _ => by rw [hG, Finset.mul_sum]
  set P' : Matrix (Fin v) (Sym2 (Fin f) ⊕ Fin f) ℚ := Matrix.of fun i s =>
    match s with
    | .inl s => Sym2.lift ⟨fun a b => P i a * P i b, fun a b => mul_comm _ _⟩ s
    | .inr a => P i a with hP'
  set Q' : Matrix (Sym2 (Fin f) ⊕ Fin f) (Fin v) ℚ := Matrix.of fun s j =>
    match s with
    | .inl s => ∑ p : Fin f × Fin f with s(p.1, p.2) = s, (Q p.1 j * Q p.2 j + x * y / e * G p)
    | .inr a => -(x + y) * Q a j with hQ'
  have hmul : P' * Q' = ((e - x) * (e - y)) • 1 := by
    ext i j
    have h1 : (P' * Q') i j = E i j ^ 2 + x * y - (x + y) * E i j := by
      rw [Matrix.mul_apply, Fintype.sum_sum_type]
      have e1 : ∑ s : Sym2 (Fin f), P' i (.inl s) * Q' (.inl s) j =
          ∑ p : Fin f × Fin f, P i p.1 * P i p.2 * (Q p.1 j * Q p.2 j + x * y / e * G p) := by
        rw [← Finset.sum_fiberwise (g := fun p : Fin f × Fin f => s(p.1, p.2))]
        refine Finset.sum_congr rfl fun s _ => ?_
        rw [hQ', Matrix.of_apply, Finset.mul_sum]
        refine Finset.sum_congr rfl fun p hp => ?_
        rw [← (Finset.mem_filter.1 hp).2, hP', Matrix.of_apply]
        rfl
      have e2 : ∑ a : Fin f, P' i (.inr a) * Q' (.inr a) j = -(x + y) * E i j := by
        rw [hfac, Finset.mul_sum]
        exact Finset.sum_congr rfl fun a _ => by rw [hQ', hP', Matrix.of_apply, Matrix.of_apply]; ring
      have e3 : ∑ p : Fin f × Fin f, P i p.1 * P i p.2 * (Q p.1 j * Q p.2 j + x * y / e * G p) =
          E i j ^ 2 + x * y / e * e := by
        have h3 : x * y / e * e = ∑ p : Fin f × Fin f, x * y / e * (P i p.1 * P i p.2 * G p) := by
          rw [← Finset.mul_sum, ← hform i]
        rw [pow_two, hsqr, h3, ← Finset.sum_add_distrib]
        exact Finset.sum_congr rfl fun p _ => by ring
      rw [e1, e2, e3, div_mul_cancel₀ _ he0]
      ring
    rw [h1, Matrix.smul_apply, Matrix.one_apply]
    by_cases hij : i = j
    · subst hij
      rw [he, if_pos rfl, smul_eq_mul]; ring
    · rw [if_neg hij, smul_zero]
      rcases hxy i j hij with h | h <;> rw [h] <;> ring
  have hne : (e - x) * (e - y) ≠ 0 := mul_ne_zero (sub_ne_zero.2 hx) (sub_ne_zero.2 hy)
  have h1 := Matrix.rank_mul_le_left P' (((e - x) * (e - y))⁻¹ • Q')
  rw [Matrix.mul_smul, hmul, smul_smul, inv_mul_cancel₀ hne, one_smul, Matrix.rank_one, Fintype.card_fin] at h1
  have h3 := Matrix.rank_le_card_width P'
  rw [Fintype.card_sum, Sym2.card, Fintype.card_fin, Nat.choose_two_right, Nat.add_sub_cancel] at h3
  have h4 : 2 * ((f + 1) * f / 2) ≤ (f + 1) * f := Nat.mul_div_le _ _
  nlinarith

section

variable {v : Nat} {k l u : Int} {m : Mat}

theorem combo_mul' (h : Spec.IsSRG v k l u m) (a b c a' b' c' : ℚ) (i j : Fin v) :
    ∑ t, combo v m a b c i t * combo v m a' b' c' t j =
      combo v m (a * a' + b * b' * (k - u)) (a * b' + a' * b + b * b' * (l - u))
        (a * c' + a' * c + b * b' * u + (b * c' + b' * c) * k + v * c * c') i j := by
  obtain ⟨-, hb, hd, hs, hdeg, hm⟩ := isSRG_iff.1 h
  have h1 := rows_mul h i j
  have h1 : ∑ t : Fin v, (Spec.ent m i t : ℚ) * Spec.ent m t j =
      u + (l - u) * Spec.ent m i j + if i = j then (k : ℚ) - u else 0 := by
    have := congrArg (Int.cast (R := ℚ)) h1
    push_cast at this
    rw [← this]
    exact Finset.sum_congr rfl fun t _ => by rw [hs t j]
  have h2 : ∀ i : Fin v, ∑ t : Fin v, (Spec.ent m i t : ℚ) = k := fun i => by
    have := congrArg (Int.cast (R := ℚ)) (hdeg i)
    push_cast at this
    exact this
  have h2' : ∑ t : Fin v, (Spec.ent m t j : ℚ) = k := by
    rw [← h2 j]
    exact Finset.sum_congr rfl fun t _ => by rw [hs t j]
  have e : ∀ t : Fin v, combo v m a b c i t * combo v m a' b' c' t j =
      (if i = t then a * combo v m a' b' c' t j else 0) + (if t = j then a' * (b * Spec.ent m i t + c) else 0) +
        b * b' * (Spec.ent m i t * Spec.ent m t j) + b * c' * Spec.ent m i t + b' * c * Spec.ent m t j +
          c * c' := by
    intro t
    unfold combo
    split <;> split <;> ring
  rw [Finset.sum_congr rfl fun t _ => e t]
  simp only [Finset.sum_add_distrib, ← Finset.mul_sum, h1, h2, h2', Finset.sum_ite_eq, Finset.sum_ite_eq',
    Finset.mem_univ, if_true, Finset.sum_const, Finset.card_univ, Fintype.card_fin, nsmul_eq_mul]
  unfold combo
  by_cases hij : i = j
  · simp only [if_pos hij]; ring
  · simp only [if_neg hij]; ring

/-- The absolute bound, with the eigenvalues `r`, `s` and the multiplicity `f` of `r`. -/
theorem absolute (h : Spec.IsSRG v k l u m) (hv : 0 < v) {r s : ℚ} (hadd : r + s = l - u) (hmul : r * s = u - k)
    (hrs : r ≠ s) (hs0 : s ≠ 0) (hs1 : s ≠ -1) {f : Nat} (hf0 : 0 < f) (hf : f * (r - s) = -k - (v - 1) * s) :
    2 * v ≤ f * (f + 3) := by
  obtain ⟨-, hb, hd, hs, hdeg, hm⟩ := isSRG_iff.1 h
  have hcnt : ((v : ℚ) - k - 1) * u = k * (k - l - 1) := by
    exact_mod_cast (arr_of_isSRG h).count hv
  have hv' : (v : ℚ) ≠ 0 := by positivity
  have hz : r - s ≠ 0 := sub_ne_zero.2 hrs
  have hnz : (v : ℚ) * (r - s) ≠ 0 := mul_ne_zero hv' hz
  set z : ℚ := ((v : ℚ) * (r - s))⁻¹ with hzdef
  have hz0 : z ≠ 0 := inv_ne_zero hnz
  have hzv : z * ((v : ℚ) * (r - s)) = 1 := inv_mul_cancel₀ hnz
  set N : Fin v → Fin v → ℚ := combo v m (-v * s) v (s - k) with hN
  have hNN : ∀ i j, ∑ t, N i t * N t j = v * (r - s) * N i j := by
    intro i j
    rw [hN, combo_mul' h]
    unfold combo
    by_cases hij : i = j
    · simp only [if_pos hij]
      linear_combination (v : ℚ) * hcnt + (v * k - v ^ 2 * Spec.ent m i j) * hadd + (v ^ 2 - v) * hmul
    · simp only [if_neg hij]
      linear_combination (v : ℚ) * hcnt + (v * k - v ^ 2 * Spec.ent m i j) * hadd - v * hmul
  have hdiag : ∀ i, N i i = f * (r - s) := by
    intro i
    rw [hN]
    unfold combo
    rw [hd i, if_pos rfl]
    push_cast
    linear_combination -hf
  refine two_values (E := Matrix.of fun i j => z * N i j) (e := z * (f * (r - s))) (x := z * (v + s - k))
    (y := z * (s - k)) ?_ ?_ ?_ ?_ ?_ ?_ ?_ ?_
  · ext i j
    rw [Matrix.mul_apply]
    simp only [Matrix.of_apply]
    rw [Finset.sum_congr rfl fun t _ => (show z * N i t * (z * N t j) = z ^ 2 * (N i t * N t j) by ring),
      ← Finset.mul_sum, hNN]
    linear_combination z * N i j * hzv
  · intro i j
    simp only [Matrix.of_apply, hN]
    unfold combo
    rw [hs i j]
    simp only [eq_comm]
  · simp only [Matrix.trace, Matrix.diag_apply, Matrix.of_apply, ← Finset.mul_sum, hdiag, Finset.sum_const,
      Finset.card_univ, Fintype.card_fin, nsmul_eq_mul]
    linear_combination (f : ℚ) * hzv
  · intro i
    rw [Matrix.of_apply, hdiag]
  · have : (f : ℚ) ≠ 0 := by positivity
    exact mul_ne_zero hz0 (mul_ne_zero this hz)
  · intro he
    have := mul_left_cancel₀ hz0 he
    have : (v : ℚ) * (s + 1) = 0 := by linear_combination hf - this
    rcases mul_eq_zero.1 this with h0 | h0
    · exact hv' h0
    · exact hs1 (by linear_combination h0)
  · intro he
    have := mul_left_cancel₀ hz0 he
    have : (v : ℚ) * s = 0 := by linear_combination hf - this
    rcases mul_eq_zero.1 this with h0 | h0
    · exact hv' h0
    · exact hs0 h0
  · intro i j hij
    simp only [Matrix.of_apply, hN]
    unfold combo
    rw [if_neg hij]
    rcases hb i j with e | e <;> rw [e]
    · right; push_cast; ring
    · left; push_cast; ring

end

end TDS
