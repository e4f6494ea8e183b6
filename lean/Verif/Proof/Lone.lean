import Verif.Proof.Spectrum
import Mathlib.LinearAlgebra.Trace

/-! A real symmetric matrix that satisfies a quadratic equation up to an error supported by one row and one
column.  The space spanned by three vectors is invariant, and on its complement there are two eigenvalues
only, with integral multiplicities. -/

namespace TDS

open Matrix

variable {n : Type} [Fintype n] [DecidableEq n]

theorem idem_trace {E : Matrix n n ℝ} (h : E * E = E) : ∃ f : ℕ, trace E = f := by
  have he : IsIdempotentElem (Matrix.toLin' E) := by
    rw [IsIdempotentElem, Module.End.mul_eq_comp, ← Matrix.toLin'_mul, h]
  refine ⟨Module.finrank ℝ (LinearMap.range (Matrix.toLin' E)), ?_⟩
  rw [← (LinearMap.IsIdempotentElem.isProj_range _ he).trace, Matrix.trace_toLin'_eq]

omit [DecidableEq n] in
theorem rank_one_mulVec (x y z : n → ℝ) : vecMulVec x y *ᵥ z = (y ⬝ᵥ z) • x := by
  ext i
  simp only [Matrix.mulVec, dotProduct, vecMulVec_apply, Pi.smul_apply, smul_eq_mul, Finset.sum_mul]
  exact Finset.sum_congr rfl fun j _ => by ring

omit [DecidableEq n] in
theorem trace_rank_one (x y : n → ℝ) : trace (vecMulVec x y) = x ⬝ᵥ y := by
  simp [Matrix.trace, dotProduct, vecMulVec_apply]

section
variable {A : Matrix n n ℝ} {e χ ω : n → ℝ} {a c k u d r s : ℝ}

theorem lone_trace (hA : Aᵀ = A) (ha : a ≠ 0) (hc : c ≠ 0) (hee : e ⬝ᵥ e = 1) (hxx : χ ⬝ᵥ χ = a)
    (hww : ω ⬝ᵥ ω = c) (hex : e ⬝ᵥ χ = 0) (hew : e ⬝ᵥ ω = 0) (hxw : χ ⬝ᵥ ω = 0)
    (h1 : e + χ + ω = fun _ => 1) (hAe : A *ᵥ e = χ) (hAx : A *ᵥ χ = a • e + (u - 1) • χ + u • ω)
    (hAw : A *ᵥ ω = (k - u) • (χ + ω))
    (hsq : A * A = (-(r * s)) • (1 : Matrix n n ℝ) + (r + s) • A + u • onesMat n -
      d • (vecMulVec e e + vecMulVec e χ + vecMulVec χ e))
    (hrs : r ≠ s) (htr : trace A = 0) :
    ∃ f : ℕ, (f : ℝ) * (r - s) = -(k - 1) - s * ((Fintype.card n : ℝ) - 3) := by
  have hxe : χ ⬝ᵥ e = 0 := by rw [dotProduct_comm]; exact hex
  have hwe : ω ⬝ᵥ e = 0 := by rw [dotProduct_comm]; exact hew
  have hwx : ω ⬝ᵥ χ = 0 := by rw [dotProduct_comm]; exact hxw
  set W : Matrix n n ℝ := vecMulVec e e + a⁻¹ • vecMulVec χ χ + c⁻¹ • vecMulVec ω ω with hW
  set P : Matrix n n ℝ := 1 - W with hP
  have hWT : Wᵀ = W := by
    rw [hW]
    simp only [Matrix.transpose_add, Matrix.transpose_smul, Matrix.transpose_vecMulVec]
  have hPT : Pᵀ = P := by rw [hP, Matrix.transpose_sub, Matrix.transpose_one, hWT]
  have hWe : W *ᵥ e = e := by
    rw [hW]
    simp only [Matrix.add_mulVec, Matrix.smul_mulVec, rank_one_mulVec, hee, hxe, hwe, zero_smul, smul_zero,
      add_zero, one_smul]
  have hWx : W *ᵥ χ = χ := by
    rw [hW]
    simp only [Matrix.add_mulVec, Matrix.smul_mulVec, rank_one_mulVec, hex, hxx, hwx, zero_smul, smul_zero,
      add_zero, zero_add, smul_smul, inv_mul_cancel₀ ha, one_smul]
  have hWw : W *ᵥ ω = ω := by
    rw [hW]
    simp only [Matrix.add_mulVec, Matrix.smul_mulVec, rank_one_mulVec, hew, hxw, hww, zero_smul, smul_zero,
      add_zero, zero_add, smul_smul, inv_mul_cancel₀ hc, one_smul]
  have hPe : P *ᵥ e = 0 := by rw [hP, Matrix.sub_mulVec, Matrix.one_mulVec, hWe, sub_self]
  have hPx : P *ᵥ χ = 0 := by rw [hP, Matrix.sub_mulVec, Matrix.one_mulVec, hWx, sub_self]
  have hPw : P *ᵥ ω = 0 := by rw [hP, Matrix.sub_mulVec, Matrix.one_mulVec, hWw, sub_self]
  have vec : ∀ x y : n → ℝ, P *ᵥ y = 0 → vecMulVec x y * P = 0 := by
    intro x y h
    rw [Matrix.vecMulVec_mul, ← Matrix.mulVec_transpose, hPT, h]
    ext i j
    simp [vecMulVec_apply]
  have hPA : P * A * W = 0 := by
    have : ∀ x y : n → ℝ, P *ᵥ (A *ᵥ x) = 0 → P * A * vecMulVec x y = 0 := by
      intro x y h
      rw [Matrix.mul_vecMulVec, ← Matrix.mulVec_mulVec, h]
      ext i j
      simp [vecMulVec_apply]
    rw [hW, Matrix.mul_add, Matrix.mul_add, Matrix.mul_smul, Matrix.mul_smul,
      this e e (by rw [hAe, hPx]),
      this χ χ (by rw [hAx]; simp only [Matrix.mulVec_add, Matrix.mulVec_smul, hPe, hPx, hPw, smul_zero, add_zero]),
      this ω ω (by rw [hAw]; simp only [Matrix.mulVec_add, Matrix.mulVec_smul, hPx, hPw, smul_zero, add_zero])]
    simp
  have h2 : P * A = P * A * P := by
    rw [hP, Matrix.mul_sub, Matrix.mul_one, ← hP, hPA, sub_zero]
  have h3 : A * P = P * A * P := by
    have := congrArg Matrix.transpose h2
    simpa only [Matrix.transpose_mul, hA, hPT, ← Matrix.mul_assoc] using this
  have hPP : P * P = P := by
    have : W * W = W := by
      conv_lhs => rhs; rw [hW]
      simp only [Matrix.mul_add, Matrix.mul_smul, Matrix.mul_vecMulVec, hWe, hWx, hWw]
      rw [hW]
    rw [hP, Matrix.mul_sub, Matrix.sub_mul, Matrix.sub_mul]
    simp [this]
  have h4 : (A * A) * P = (r + s) • (A * P) + (-(r * s)) • P := by
    have hJ : onesMat n = vecMulVec (fun _ => (1 : ℝ)) (e + χ + ω) := by
      rw [h1]; ext i j; simp [onesMat, vecMulVec_apply]
    rw [hsq, Matrix.sub_mul, Matrix.add_mul, Matrix.add_mul, Matrix.smul_mul, Matrix.smul_mul, Matrix.smul_mul,
      Matrix.smul_mul, Matrix.add_mul, Matrix.add_mul, vec e e hPe, vec e χ hPx, vec χ e hPe, hJ,
      vec _ _ (by simp only [Matrix.mulVec_add, hPe, hPx, hPw, add_zero]), Matrix.one_mul]
    simp only [add_zero, smul_zero, sub_zero]
    abel
  set E : Matrix n n ℝ := (r - s)⁻¹ • (A * P - s • P) with hE
  have hne : r - s ≠ 0 := sub_ne_zero.2 hrs
  have hEE : E * E = E := by
    have h5 : (A * P - s • P) * (A * P - s • P) = (r - s) • (A * P - s • P) := by
      have e1 : A * P * (A * P) = A * A * P := by
        calc A * P * (A * P) = A * (P * A * P) := by simp only [Matrix.mul_assoc]
          _ = A * (A * P) := by rw [← h3]
          _ = A * A * P := by rw [Matrix.mul_assoc]
      have e2 : A * P * P = A * P := by rw [Matrix.mul_assoc, hPP]
      have e3 : P * (A * P) = A * P := by rw [← Matrix.mul_assoc, ← h3]
      rw [Matrix.mul_sub, Matrix.sub_mul, Matrix.sub_mul, Matrix.mul_smul, Matrix.smul_mul, Matrix.smul_mul,
        Matrix.mul_smul, e1, e2, e3, hPP, h4]
      module
    rw [hE, Matrix.smul_mul, Matrix.mul_smul, h5, smul_smul, smul_smul, mul_assoc, inv_mul_cancel₀ hne, mul_one]
  obtain ⟨f, hf⟩ := idem_trace hEE
  refine ⟨f, ?_⟩
  have ht : trace (A * P - s • P) = -(k - 1) - s * ((Fintype.card n : ℝ) - 3) := by
    have t1 : trace W = 3 := by
      rw [hW]
      simp only [Matrix.trace_add, Matrix.trace_smul, trace_rank_one, hee, hxx, hww, smul_eq_mul,
        inv_mul_cancel₀ ha, inv_mul_cancel₀ hc]
      norm_num
    have t2 : trace (A * W) = k - 1 := by
      rw [hW]
      simp only [Matrix.mul_add, Matrix.mul_smul, Matrix.mul_vecMulVec, Matrix.trace_add, Matrix.trace_smul,
        trace_rank_one, hAe, hAx, hAw, add_dotProduct, smul_dotProduct, smul_eq_mul, hxe, hex, hxx, hwx, hxw, hww]
      field_simp
      ring
    rw [hP, Matrix.mul_sub, Matrix.mul_one, Matrix.trace_sub, Matrix.trace_sub, Matrix.trace_smul,
      Matrix.trace_sub, Matrix.trace_one, htr, t1, t2, smul_eq_mul]
    ring
  have h6 : (r - s) * trace E = trace (A * P - s • P) := by
    rw [hE, Matrix.trace_smul, smul_eq_mul, mul_inv_cancel_left₀ hne]
  rw [hf, ht] at h6
  linarith

end

end TDS
