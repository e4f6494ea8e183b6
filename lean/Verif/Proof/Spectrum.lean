import Mathlib.Analysis.Matrix.Spectrum
import Mathlib.LinearAlgebra.Matrix.SchurComplement
import Mathlib.Algebra.Polynomial.Roots

/-! Determinant and eigenvalue multiplicities of a real symmetric matrix with constant row sums
that satisfies a quadratic equation up to a multiple of the all-ones matrix. -/

namespace TDS

open Matrix

variable {n : Type} [Fintype n] [DecidableEq n]

/-- The all-ones matrix. -/
def onesMat (n : Type) : Matrix n n ℝ := Matrix.of fun _ _ => 1

omit [DecidableEq n] in
theorem ones_mul_ones : onesMat n * onesMat n = (Fintype.card n : ℝ) • onesMat n := by
  ext i j
  simp [Matrix.mul_apply, onesMat]

theorem det_one_add_ones (t : ℝ) : det (1 + t • onesMat n) = 1 + t * Fintype.card n := by
  have h : t • onesMat n = replicateCol Unit (fun _ : n => t) * replicateRow Unit (fun _ : n => (1 : ℝ)) := by
    ext i j
    simp [Matrix.mul_apply, onesMat]
  rw [h, det_one_add_replicateCol_mul_replicateRow]
  simp [dotProduct]
  ring

theorem quad_eigen {B : Matrix n n ℝ} (hB : B.IsHermitian) {r s : ℝ}
    (hq : B * B = (-(r * s)) • (1 : Matrix n n ℝ) + (r + s) • B) (i : n) :
    hB.eigenvalues i = r ∨ hB.eigenvalues i = s := by
  set x : n → ℝ := ⇑(hB.eigenvectorBasis i) with hx
  set e := hB.eigenvalues i with he
  have h1 : B *ᵥ x = e • x := hB.mulVec_eigenvectorBasis i
  have h2 : (B * B) *ᵥ x = (e * e) • x := by
    rw [← Matrix.mulVec_mulVec, h1, Matrix.mulVec_smul, h1, smul_smul]
  rw [hq, Matrix.add_mulVec, Matrix.smul_mulVec, Matrix.smul_mulVec, Matrix.one_mulVec, h1] at h2
  have hx0 : x ≠ 0 := by
    intro h0
    have h3 := hB.eigenvectorBasis.orthonormal.ne_zero i
    apply h3
    ext j
    exact congrFun h0 j
  obtain ⟨j, hj⟩ := Function.ne_iff.1 hx0
  have h4 := congrFun h2 j
  simp only [Pi.add_apply, Pi.smul_apply, smul_eq_mul, Pi.zero_apply] at h4 hj
  have h5 : (e - r) * (e - s) = 0 := by
    have : x j * ((e - r) * (e - s)) = 0 := by linear_combination -h4
    rcases mul_eq_zero.1 this with h | h
    · exact absurd h hj
    · exact h
  rcases mul_eq_zero.1 h5 with h | h
  · left; linarith
  · right; linarith

theorem two_eig {A : Matrix n n ℝ} (hA : A.IsHermitian) {k r s u : ℝ} [Nonempty n]
    (hrow : ∀ i, ∑ j, A i j = k)
    (hsq : A * A = (-(r * s)) • (1 : Matrix n n ℝ) + (r + s) • A + u • onesMat n)
    (hcount : (k - s) * (k - r) = u * Fintype.card n)
    (htr : trace A = 0) :
    ∃ f ≤ Fintype.card n, (f : ℝ) * r + ((Fintype.card n : ℝ) - f) * s = s - k ∧
      ∀ x, x ≠ s → A.charpoly.eval x * (x - s) =
        (x - k) * ((x - r) ^ f * (x - s) ^ (Fintype.card n - f)) := by
  set v : ℝ := (Fintype.card n : ℝ) with hv
  have hv0 : v ≠ 0 := by
    rw [hv]; exact_mod_cast Fintype.card_ne_zero
  set J := onesMat n with hJ
  have hAJ : A * J = k • J := by
    ext i j
    simp [Matrix.mul_apply, hJ, onesMat, hrow]
  have hsym : ∀ i j, A i j = A j i := fun i j => by
    have := congrFun (congrFun hA j) i
    simpa [Matrix.conjTranspose_apply] using this
  have hJA : J * A = k • J := by
    ext i j
    have : ∑ x, A x j = k := by
      rw [← hrow j]; exact Finset.sum_congr rfl (fun x _ => hsym x j)
    simp [Matrix.mul_apply, hJ, onesMat, this]
  have hJJ : J * J = v • J := ones_mul_ones
  set c : ℝ := (k - s) / v with hc
  have hcv : c * v = k - s := by rw [hc]; field_simp
  set B := A - c • J with hBdef
  have hJh : J.IsHermitian := by
    ext i j
    simp [hJ, onesMat, Matrix.conjTranspose_apply]
  have hB : B.IsHermitian := by
    rw [hBdef]
    refine hA.sub ?_
    ext i j
    simp [hJ, onesMat, Matrix.conjTranspose_apply]
  have hBB : B * B = (-(r * s)) • (1 : Matrix n n ℝ) + (r + s) • B := by
    have hz : u - 2 * c * k + c * c * v + (r + s) * c = 0 := by
      have h1 : u * v - 2 * (c * v) * k + (c * v) * (c * v) + (r + s) * (c * v) = 0 := by
        rw [hcv]; linear_combination -hcount
      have : v * (u - 2 * c * k + c * c * v + (r + s) * c) = 0 := by linear_combination h1
      exact (mul_eq_zero.1 this).resolve_left hv0
    have h1 : B * B = A * A - (c * k) • J - (c * k) • J + (c * c * v) • J := by
      rw [hBdef, Matrix.sub_mul, Matrix.mul_sub, Matrix.mul_sub, Matrix.mul_smul, Matrix.smul_mul,
        Matrix.smul_mul, Matrix.mul_smul, hAJ, hJA, hJJ]
      simp only [smul_smul]
      rw [sub_sub_eq_add_sub]
      simp only [mul_assoc]
      abel
    rw [h1, hsq, hBdef]
    ext i j
    simp only [Matrix.add_apply, Matrix.sub_apply, Matrix.smul_apply, smul_eq_mul]
    linear_combination (J i j) * hz
  have heig := quad_eigen hB hBB
  set S := Finset.univ.filter (fun i => hB.eigenvalues i = r) with hS
  have hsum : ∑ i, hB.eigenvalues i = (S.card : ℝ) * r + (v - S.card) * s := by
    have : ∀ i, hB.eigenvalues i = s + (if hB.eigenvalues i = r then (r - s) else 0) := by
      intro i
      split
      · next h => rw [h]; ring
      · next h => rw [(heig i).resolve_left h]; ring
    rw [Finset.sum_congr rfl (fun i _ => this i), Finset.sum_add_distrib, Finset.sum_ite]
    simp only [Finset.sum_const, Finset.card_univ, nsmul_eq_mul]
    ring
  have hpoly : ∀ x, B.charpoly.eval x = (x - r) ^ S.card * (x - s) ^ (Fintype.card n - S.card) := by
    intro x
    rw [hB.charpoly_eq, Polynomial.eval_prod]
    have : ∀ i, (Polynomial.X - Polynomial.C ((hB.eigenvalues i : ℝ))).eval x =
        if hB.eigenvalues i = r then x - r else x - s := by
      intro i
      rw [Polynomial.eval_sub, Polynomial.eval_X, Polynomial.eval_C]
      split
      · next h => rw [h]
      · next h => rw [(heig i).resolve_left h]
    refine (Finset.prod_congr rfl (fun i _ => this i)).trans ?_
    rw [Finset.prod_ite]
    simp only [Finset.prod_const]
    congr 2
    rw [← Finset.card_compl]
    congr 1
    ext i
    simp [hS]
  have htrB : trace B = s - k := by
    have h1 : trace J = v := by simp [hJ, onesMat, Matrix.trace, hv]
    rw [hBdef, Matrix.trace_sub, Matrix.trace_smul, htr, h1, smul_eq_mul, hcv]
    ring
  refine ⟨S.card, Finset.card_le_univ _, ?_, ?_⟩
  · rw [← hsum, ← htrB]
    have := hB.trace_eq_sum_eigenvalues
    simpa using this.symm
  · intro x hx
    have hxs : x - s ≠ 0 := sub_ne_zero.2 hx
    have hBJ : B * J = s • J := by
      rw [hBdef, Matrix.sub_mul, Matrix.smul_mul, hAJ, hJJ, smul_smul, hcv, ← sub_smul]
      congr 1; ring
    have hfac : scalar n x - A = (scalar n x - B) * (1 + (-(c / (x - s))) • J) := by
      rw [Matrix.mul_add, Matrix.mul_one, Matrix.mul_smul, Matrix.sub_mul, hBJ]
      have : scalar n x * J = x • J := by
        rw [Matrix.scalar_apply, ← Matrix.smul_eq_diagonal_mul]
      rw [this, ← sub_smul, smul_smul, neg_mul, div_mul_cancel₀ _ hxs, hBdef, neg_smul]
      abel
    rw [Matrix.eval_charpoly, hfac, Matrix.det_mul, det_one_add_ones, ← Matrix.eval_charpoly, hpoly]
    have : (1 + -(c / (x - s)) * v) * (x - s) = x - k := by
      have : c / (x - s) * v * (x - s) = k - s := by
        rw [← hcv]; field_simp
      linear_combination -this
    rw [mul_assoc, ← hv, this]
    ring

open Polynomial in
/-- The characteristic polynomial itself. -/
theorem two_charpoly {A : Matrix n n ℝ} (hA : A.IsHermitian) {k r s u : ℝ} [Nonempty n]
    (hrow : ∀ i, ∑ j, A i j = k)
    (hsq : A * A = (-(r * s)) • (1 : Matrix n n ℝ) + (r + s) • A + u • onesMat n)
    (hcount : (k - s) * (k - r) = u * Fintype.card n)
    (htr : trace A = 0) (hr : 0 ≤ r) (hsk : s < k) :
    ∃ f g : ℕ, f + g + 1 = Fintype.card n ∧ k + (f : ℝ) * r + (g : ℝ) * s = 0 ∧
      A.charpoly = (X - C k) * (X - C r) ^ f * (X - C s) ^ g := by
  obtain ⟨f, hf, htr', hev⟩ := two_eig hA hrow hsq hcount htr
  have hfn : f ≠ Fintype.card n := by
    intro h
    rw [h, sub_self, zero_mul, add_zero] at htr'
    have : (0 : ℝ) ≤ (Fintype.card n : ℝ) * r := mul_nonneg (Nat.cast_nonneg _) hr
    linarith
  obtain ⟨g, hg⟩ : ∃ g, Fintype.card n = f + g + 1 := ⟨Fintype.card n - f - 1, by omega⟩
  refine ⟨f, g, hg.symm, ?_, ?_⟩
  · rw [hg] at htr'
    push_cast at htr'
    linear_combination htr'
  · apply Polynomial.eq_of_infinite_eval_eq
    apply Set.Infinite.mono (s := {x | x ≠ s})
    · intro x hx
      have hx' : x - s ≠ 0 := sub_ne_zero.2 hx
      have h1 := hev x hx
      have h2 : Fintype.card n - f = g + 1 := by omega
      rw [h2, pow_succ] at h1
      simp only [Set.mem_ofPred_eq, eval_mul, eval_pow, eval_sub, eval_X, eval_C]
      apply mul_right_cancel₀ hx'
      rw [h1]; ring
    · exact (Set.finite_singleton s).infinite_compl

end TDS
