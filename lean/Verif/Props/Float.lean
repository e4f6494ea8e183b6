import Verif.Model.EigF
import Verif.Props.TestsEig
import Verif.Proof.Bits
import Mathlib.Data.Int.Log

/-! C72: floating-point arithmetic in `eig` and `determinant`. -/

namespace Spec

/-- Integers up to `2^53` are floating-point numbers. -/
def ExactInts (rnd : ℝ → ℝ) : Prop := ∀ n : Int, |n| ≤ 2 ^ 53 → rnd n = n

/-- Rounding changes a number by at most one part in `2^53`, and `pow` is wrong by at most one part in
`2^52`. -/
def Accurate (rnd : ℝ → ℝ) (pow : ℝ → Int → ℝ) : Prop :=
  (∀ x, |rnd x - x| ≤ 1 / 2 ^ 53 * |x|) ∧ ∀ x n, |pow x n - x ^ n| ≤ 1 / 2 ^ 52 * |x ^ n|

/-- A number with 53 significant binary digits. -/
def Bits53 (x : ℝ) : Prop := ∃ n e : Int, |n| ≤ 2 ^ 53 ∧ x = n * 2 ^ e

end Spec

namespace TDS

open Utils

section

variable {v : Nat} {k l u : Int} {m : Mat} {F : Flt}

/-- The numbers that occur outside the conference case. -/
theorem nonconf (h : Spec.IsSRG v k l u m) (hk : 0 < k) (hkv : k + 1 < v)
    (hc : conference v k l u ≠ 0) : ∃ d e f g : Int, 0 < d ∧ d ≤ v + 1 ∧ d ^ 2 = (l - u) ^ 2 + 4 * (k - u) ∧
      l - u + d = 2 * e ∧ conference v k l u = (g - f) * d ∧ (v : Int) - 1 = f + g ∧ 0 ≤ f ∧ 0 ≤ g ∧
      0 ≤ l ∧ l < k ∧ 0 ≤ u ∧ u ≤ k := by
  have ha := arr_of_isSRG h
  obtain ⟨hu0, huk⟩ := ha.u_le (by omega) (by omega)
  obtain ⟨hl0, hlk⟩ := ha.l_lt (by omega) hk
  obtain ⟨d, q, hdp, hd, hq, ⟨f, hf⟩, hb⟩ := C40_integral h hk hkv hc
  obtain ⟨e, he⟩ : ∃ e : Int, l - u + d = 2 * e := by
    have h3 : (l - u + d) * (l - u - d) = 2 * (2 * (u - k)) := by linear_combination -hd
    rcases Int.even_or_odd' (l - u + d) with ⟨e, he | he⟩
    · exact ⟨e, he⟩
    · exfalso
      have h4 : l - u - d = 2 * (e - d) + 1 := by omega
      rw [he, h4] at h3
      have : (2 * e + 1) * (2 * (e - d) + 1) = 2 * (2 * e * (e - d) + e + (e - d)) + 1 := by ring
      omega
  rw [abs_le] at hb
  refine ⟨d, e, f, q + f, hdp, ?_, hd, he, ?_, by omega, by omega, by omega, hl0, hlk, hu0, huk⟩
  · by_contra hlt
    have h1 : (v : Int) + 2 ≤ d := by omega
    nlinarith
  · rw [show q + f - f = q by ring, ← hq]; rfl

/-- **C72.**  Outside the conference case rounding does not matter: `eig` returns integers, and these
are the eigenvalues and multiplicities. -/
theorem C72_eig (hF : Spec.ExactInts F.rnd) (h : Spec.IsSRG v k l u m) (hk : 0 < k) (hkv : k + 1 < v)
    (hv : v ≤ 2 ^ 25) (hc : conference v k l u ≠ 0) :
    ∃ a b f g : Int, eigF F v k l u = .ok [(.int k, 1), (.int a, f), (.int b, g)] ∧
      Spec.IsSpectrum (Spec.realMat v m) [((k : ℝ), 1), ((a : ℝ), f), ((b : ℝ), g)] := by
  obtain ⟨d, e, f, g, hd0, hdv, hd, he, hcf, hfg, hf, hg, hl0, hlk, hu0, huk⟩ := nonconf h hk hkv hc
  have hv2 : (v : Int) ≤ 2 ^ 25 := by exact_mod_cast hv
  have hdisc : 0 < (l - u) ^ 2 + 4 * (k - u) := disc_pos h hk hkv
  have hs : √(((l - u) ^ 2 + 4 * (k - u) : Int) : ℝ) = (d : ℝ) := by
    rw [← hd]
    push_cast
    exact Real.sqrt_sq (by exact_mod_cast hd0.le)
  have hdR : (d : ℝ) ≠ 0 := by exact_mod_cast hd0.ne'
  have hcR : (conference v k l u : ℝ) / (d : ℝ) = ((g - f : Int) : ℝ) := by
    rw [hcf]; push_cast; field_simp
  have e1 : (((l - u + d : Int) : ℝ)) / ((2 : Int) : ℝ) = ((e : Int) : ℝ) := by
    rw [he]; push_cast; ring
  have e2 : (((l - u - d : Int) : ℝ)) / ((2 : Int) : ℝ) = ((e - d : Int) : ℝ) := by
    rw [show l - u - d = 2 * (e - d) by omega]; push_cast; ring
  refine ⟨e, e - d, f, g, ?_, ?_⟩
  · have r0 : F.rnd (((l - u) ^ 2 + 4 * (k - u) : Int) : ℝ) = (((l - u) ^ 2 + 4 * (k - u) : Int) : ℝ) := by
      apply hF
      rw [← hd, abs_of_nonneg (by positivity)]
      nlinarith
    have r1 : F.rnd (d : ℝ) = d := hF d (by rw [abs_of_pos hd0]; omega)
    have r2 : F.rnd ((e : Int) : ℝ) = (e : Int) := hF e (by rw [abs_le]; omega)
    have r3 : F.rnd ((e - d : Int) : ℝ) = (e - d : Int) := hF (e - d) (by rw [abs_le]; omega)
    have r4 : F.rnd ((g - f : Int) : ℝ) = (g - f : Int) := hF (g - f) (by rw [abs_le]; omega)
    have r5 : F.rnd (((v : Int) - 1 : Int) : ℝ) = ((v : Int) - 1 : Int) := hF _ (by rw [abs_le]; omega)
    have r6 : F.rnd ((2 : Int) : ℝ) = (2 : Int) := hF 2 (by norm_num)
    have r7 : F.rnd ((f : Int) : ℝ) = (f : Int) := hF f (by rw [abs_le]; omega)
    have r8 : F.rnd ((g : Int) : ℝ) = (g : Int) := hF g (by rw [abs_le]; omega)
    have s1 : (((v : Int) - 1 : Int) : ℝ) - ((g - f : Int) : ℝ) = ((2 * f : Int) : ℝ) := by
      rw [hfg]; push_cast; ring
    have s2 : (((v : Int) - 1 : Int) : ℝ) + ((g - f : Int) : ℝ) = ((2 * g : Int) : ℝ) := by
      rw [hfg]; push_cast; ring
    have r9 : F.rnd ((2 * f : Int) : ℝ) = (2 * f : Int) := hF _ (by rw [abs_le]; omega)
    have r10 : F.rnd ((2 * g : Int) : ℝ) = (2 * g : Int) := hF _ (by rw [abs_le]; omega)
    have t1 : ((2 * f : Int) : ℝ) / ((2 : Int) : ℝ) = (f : Int) := by push_cast; ring
    have t2 : ((2 * g : Int) : ℝ) / ((2 : Int) : ℝ) = (g : Int) := by push_cast; ring
    unfold eigF
    simp only [hc, ne_eq, not_false_eq_true, if_true, if_neg (not_lt.2 hdisc.le), r0, hs, r1,
      Num.toInt, toInt_intCast, Num.isZero, if_neg hd0.ne', Num.add, Num.sub, Num.div, Num.toFlt,
      e1, e2, r2, r3, hcR, r4, r5, s1, s2, r6, r9, r10, t1, t2, r7, r8, List.map_cons, List.map_nil,
      List.zip_cons_cons, List.zip_nil_left]
  · obtain ⟨L, hL, hsp⟩ := C40_eig h hk hkv
    have hL' : Utils.eig v k l u = .ok [((k : ℝ), 1), ((e : ℝ), f), (((e - d : Int) : ℝ), g)] := by
      have e1' : ((l : ℝ) - u + d) / 2 = ((e : Int) : ℝ) := by rw [← e1]; push_cast; ring
      have e2' : ((l : ℝ) - u - d) / 2 = ((e - d : Int) : ℝ) := by rw [← e2]; push_cast; ring
      have hvR : (((v : Int) : ℝ)) - 1 = (f : ℝ) + g := by exact_mod_cast hfg
      have s1 : ((((v : Int) : ℝ)) - 1 - ((g - f : Int) : ℝ)) / 2 = ((f : Int) : ℝ) := by
        rw [hvR]; push_cast; ring
      have s2 : ((((v : Int) : ℝ)) - 1 + ((g - f : Int) : ℝ)) / 2 = ((g : Int) : ℝ) := by
        rw [hvR]; push_cast; ring
      unfold Utils.eig
      simp only [hc, ne_eq, not_false_eq_true, if_true, if_neg (not_lt.2 hdisc.le), hs,
        toInt_intCast, if_neg hdR, List.map_cons, List.map_nil, List.zip_cons_cons,
        List.zip_nil_left, e1', e2', hcR, s1, s2]
    rw [hL'] at hL
    cases hL
    exact hsp

/-- **C72.**  Outside the conference case rounding does not matter: `determinant` returns the
determinant. -/
theorem C72_determinant (hF : Spec.ExactInts F.rnd) (h : Spec.IsSRG v k l u m) (hk : 0 < k)
    (hkv : k + 1 < v) (hv : v ≤ 2 ^ 25) (hc : conference v k l u ≠ 0) :
    determinantF F v k l u = .ok (Spec.intMat v m).det := by
  obtain ⟨a, b, f, g, h1, h2⟩ := C72_eig hF h hk hkv hv hc
  have hf : 0 ≤ f := h2.1 ((a : ℝ), f) (by simp)
  have hg : 0 ≤ g := h2.1 ((b : ℝ), g) (by simp)
  have hdet := det_of_spectrum h2
  rw [det_cast] at hdet
  simp only [List.map_cons, List.map_nil, List.prod_cons, List.prod_nil, mul_one, Int.toNat_one,
    pow_one] at hdet
  have hdet' : (Spec.intMat v m).det = k * (a ^ f.toNat * b ^ g.toNat) := by exact_mod_cast hdet
  unfold determinantF
  rw [h1, hdet']
  simp only [Except.bind, prodLoopF, Num.mul, Num.pow, if_pos hf, if_pos hg, not_lt.2 hf, not_lt.2 hg,
    and_false, if_false, Num.round]
  norm_num
  ring

/-- The parameters in the conference case. -/
theorem conf_params (h : Spec.IsSRG v k l u m) (hk : 0 < k) (hkv : k + 1 < v)
    (hc : conference v k l u = 0) : 1 ≤ u ∧ (v : Int) = 4 * u + 1 ∧ k = 2 * u ∧ l = u - 1 := by
  have ha := arr_of_isSRG h
  obtain ⟨hu0, huk⟩ := ha.u_le (by omega) (by omega)
  have h1 : (v - k - 1) * u = k * (k - l - 1) := (arr_of_isSRG h).count (by omega)
  have h2 : 2 * k + ((v : Int) - 1) * (l - u) = 0 := hc
  have h3 : u - l = 1 := by
    have a : 0 < u - l := by
      by_contra hn
      have : 0 ≤ ((v : Int) - 1) * (l - u) := mul_nonneg (by omega) (by omega)
      omega
    have b : u - l < 2 := by
      by_contra hn
      have : 2 * ((v : Int) - 1) ≤ (u - l) * (v - 1) := by
        apply mul_le_mul_of_nonneg_right <;> omega
      nlinarith
    omega
  have h4 : 2 * k = v - 1 := by
    rw [show l - u = -1 by omega] at h2
    omega
  have h5 : k * u = k * (k - l - 1) := by rw [← h1, show (v : Int) - k - 1 = k by omega]
  have h6 : u = k - l - 1 := mul_left_cancel₀ hk.ne' h5
  omega

/-- `x` is `y` up to a factor between `2 - c` and `c`. -/
def Approx (c x y : ℝ) : Prop := |x - y| ≤ (c - 1) * |y|

theorem Approx.abs_le {c x y : ℝ} (h : Approx c x y) : |x| ≤ c * |y| := by
  have := abs_sub_abs_le_abs_sub x y
  unfold Approx at h
  linarith

theorem Approx.trans {c d x y z : ℝ} (h : Approx c x y) (h' : Approx d y z) (hc : 1 ≤ c) :
    Approx (c * d) x z := by
  have h1 := h'.abs_le
  unfold Approx at *
  have h2 : |x - z| ≤ |x - y| + |y - z| := abs_sub_le x y z
  have h3 : (c - 1) * |y| ≤ (c - 1) * (d * |z|) := mul_le_mul_of_nonneg_left h1 (by linarith)
  nlinarith

theorem Approx.mul {c d x y x' y' : ℝ} (h : Approx c x y) (h' : Approx d x' y') :
    Approx (c * d) (x * x') (y * y') := by
  have h1 := h.abs_le
  unfold Approx at *
  rw [show x * x' - y * y' = x * (x' - y') + (x - y) * y' by ring]
  refine (abs_add_le _ _).trans ?_
  rw [abs_mul, abs_mul, abs_mul]
  have h2 : |x| * |x' - y'| ≤ (c * |y|) * ((d - 1) * |y'|) :=
    mul_le_mul h1 h' (abs_nonneg _) ((abs_nonneg _).trans h1)
  have h3 : |x - y| * |y'| ≤ ((c - 1) * |y|) * |y'| := mul_le_mul_of_nonneg_right h (abs_nonneg _)
  nlinarith

theorem Approx.refl (x : ℝ) : Approx 1 x x := by unfold Approx; simp

theorem Approx.pow {c x y : ℝ} (h : Approx c x y) (n : Nat) : Approx (c ^ n) (x ^ n) (y ^ n) := by
  induction n with
  | zero => simpa using Approx.refl 1
  | succ n ih => rw [pow_succ, pow_succ, pow_succ]; exact ih.mul h

theorem Approx.half {c x y : ℝ} (h : Approx c x y) : Approx c (x / 2) (y / 2) := by
  unfold Approx at *
  rw [← sub_div, abs_div, abs_div, abs_two]
  linarith

theorem Approx.mono {c d x y : ℝ} (h : Approx c x y) (hcd : c ≤ d) : Approx d x y := by
  unfold Approx at *
  have := abs_nonneg y
  nlinarith

theorem approx_rnd (hF : Spec.Accurate F.rnd F.pow) (x : ℝ) : Approx (1 + 1 / 2 ^ 53) (F.rnd x) x := by
  unfold Approx
  rw [add_sub_cancel_left]
  exact hF.1 x

theorem approx_pow (hF : Spec.Accurate F.rnd F.pow) (x : ℝ) (n : Nat) :
    Approx (1 + 1 / 2 ^ 52) (F.pow x n) (x ^ n) := by
  unfold Approx
  rw [add_sub_cancel_left]
  simpa using hF.2 x n

/-- **C72.**  When `eig` fails, for any integers: the number under the root is negative (ValueError) or
zero (ZeroDivisionError, or ValueError if `conference` is zero).  If it is positive there is a result. -/
theorem C72_errors (hE : Spec.ExactInts F.rnd) (hF : Spec.Accurate F.rnd F.pow) (n : Int) :
    ((l - u) ^ 2 + 4 * (k - u) < 0 → eigF F n k l u = .error .valueErr) ∧
    ((l - u) ^ 2 + 4 * (k - u) = 0 → conference n k l u ≠ 0 → eigF F n k l u = .error .zeroDiv) ∧
    ((l - u) ^ 2 + 4 * (k - u) = 0 → conference n k l u = 0 → eigF F n k l u = .error .valueErr) ∧
    (0 < (l - u) ^ 2 + 4 * (k - u) → (l - u) ^ 2 + 4 * (k - u) ≤ 2 ^ 53 →
      ∃ L, eigF F n k l u = .ok L) := by
  have r0 : F.rnd 0 = 0 := by simpa using hE 0 (by norm_num)
  refine ⟨fun h => ?_, fun h hc => ?_, fun h hc => ?_, fun h hle => ?_⟩
  · unfold eigF
    simp only [if_pos h]
  · unfold eigF
    simp only [h, lt_irrefl, if_false, Int.cast_zero, r0, Real.sqrt_zero, ne_eq, hc,
      not_false_eq_true, if_true, Num.toInt, Num.isZero]
    rw [if_pos (by simpa using toInt_intCast 0)]
  · unfold eigF
    simp only [h, lt_irrefl, if_false, Int.cast_zero, r0, Real.sqrt_zero, ne_eq, hc,
      not_true_eq_false, Num.isZero, if_true]
  · generalize hd : (l - u) ^ 2 + 4 * (k - u) = d at h hle
    have hr : F.rnd (d : ℝ) = d := hE d (by rw [abs_of_pos h]; exact hle)
    have hpos : 1 ≤ F.rnd √(d : ℝ) := by
      rcases eq_or_lt_of_le (show 1 ≤ d from h) with h1 | h1
      · rw [← h1, Int.cast_one, Real.sqrt_one]
        exact (by simpa using hE 1 (by norm_num) : F.rnd 1 = 1).ge
      · have h2 : (1.2 : ℝ) ≤ √(d : ℝ) := by
          apply Real.le_sqrt_of_sq_le
          have : (2 : ℝ) ≤ d := by exact_mod_cast h1
          norm_num; linarith
        have h3 := (abs_le.1 (hF.1 √(d : ℝ))).1
        rw [abs_of_nonneg (by positivity : (0 : ℝ) ≤ √(d : ℝ))] at h3
        norm_num at h3 ⊢
        linarith
    unfold eigF
    simp only [hd, if_neg (not_lt.2 h.le), hr]
    by_cases hc : conference n k l u = 0
    · simp only [hc, ne_eq, not_true_eq_false, if_false, Num.isZero]
      rw [if_neg (by rw [hd, hr]; linarith)]
      exact ⟨_, rfl⟩
    · simp only [hc, ne_eq, not_false_eq_true, if_true, Num.isZero, Num.toInt]
      have : ¬ Utils.toInt (F.rnd √(d : ℝ)) = 0 := by
        unfold Utils.toInt
        rw [if_pos (by linarith)]
        have := Int.le_floor.2 (by simpa using hpos : ((1 : Int) : ℝ) ≤ F.rnd √(d : ℝ))
        omega
      rw [if_neg (by rw [hd, hr]; exact this)]
      exact ⟨_, rfl⟩

/-- **C72.**  In the conference case `eig` returns the right multiplicities, and the two irrational
eigenvalues up to five parts in `2^53`. -/
theorem C72_conference_eig (hE : Spec.ExactInts F.rnd) (hF : Spec.Accurate F.rnd F.pow)
    (h : Spec.IsSRG v k l u m) (hk : 0 < k) (hkv : k + 1 < v)
    (hv : v ≤ 2 ^ 53) (hc : conference v k l u = 0) : ∃ (x y : ℝ) (n : Nat),
      eigF F v k l u = .ok [(.int k, 1), (.flt x, n), (.flt y, n)] ∧
      Spec.IsSpectrum (Spec.realMat v m) [((k : ℝ), 1), ((-1 + √v) / 2, (n : Int)),
        ((-1 - √v) / 2, (n : Int))] ∧
      v = 2 * n + 1 ∧ |x - (-1 + √v) / 2| ≤ 5 / 2 ^ 53 * |(-1 + √v) / 2| ∧
      |y - (-1 - √v) / 2| ≤ 5 / 2 ^ 53 * |(-1 - √v) / 2| := by
  obtain ⟨hu, hv4, hk2, hl⟩ := conf_params h hk hkv hc
  have hdisc : (l - u) ^ 2 + 4 * (k - u) = (v : Int) := by rw [hl, hk2, hv4]; ring
  obtain ⟨n, hn⟩ := Int.eq_ofNat_of_zero_le hk.le
  subst hn
  have hvn : v = 2 * n + 1 := by omega
  have hvR : (5 : ℝ) ≤ v := by exact_mod_cast (by omega : 5 ≤ v)
  have hs0 : (2 : ℝ) ≤ √(v : ℝ) := Real.le_sqrt_of_sq_le (by linarith)
  have hv53 : ((v : Int)) ≤ 2 ^ 53 := by exact_mod_cast hv
  have r0 : F.rnd (((v : Int)) : ℝ) = v := by
    simpa using hE v (by rw [abs_of_nonneg (by omega)]; exact hv53)
  have r1 : F.rnd ((-1 : Int) : ℝ) = (-1 : Int) := hE _ (by norm_num)
  have r2 : F.rnd ((2 : Int) : ℝ) = (2 : Int) := hE _ (by norm_num)
  have r3 : F.rnd ((0 : Int) : ℝ) = (0 : Int) := hE _ (by norm_num)
  have r4 : F.rnd (((v : Int) - 1 : Int) : ℝ) = ((v : Int) - 1 : Int) := hE _ (by rw [abs_le]; omega)
  have r5 : F.rnd ((n : Int) : ℝ) = (n : Int) := hE _ (by rw [abs_le]; omega)
  set D := F.rnd √(v : ℝ) with hD
  have aD : |D - √(v : ℝ)| ≤ 1 / 2 ^ 53 * √(v : ℝ) := by
    have := hF.1 √(v : ℝ)
    rwa [abs_of_nonneg (Real.sqrt_nonneg _)] at this
  have hD0 : D ≠ 0 := by
    intro h0
    rw [h0, zero_sub, abs_neg, abs_of_nonneg (Real.sqrt_nonneg _)] at aD
    norm_num at aD
    linarith
  refine ⟨F.rnd (F.rnd (-1 + D) / 2), F.rnd (F.rnd (-1 - D) / 2), n, ?_, ?_, hvn, ?_, ?_⟩
  · have t0 : l - u = -1 := by omega
    have z0 : ((0 : Int) : ℝ) / D = ((0 : Int) : ℝ) := by simp
    have z1 : (((v : Int) - 1 : Int) : ℝ) - ((0 : Int) : ℝ) = (((v : Int) - 1 : Int) : ℝ) := by simp
    have z2 : (((v : Int) - 1 : Int) : ℝ) + ((0 : Int) : ℝ) = (((v : Int) - 1 : Int) : ℝ) := by simp
    have z3 : (((v : Int) - 1 : Int) : ℝ) / ((2 : Int) : ℝ) = ((n : Int) : ℝ) := by
      rw [show (v : Int) - 1 = 2 * n by omega]; push_cast; ring
    unfold eigF
    simp only [hdisc]
    rw [if_neg (by omega), if_neg (by
      rw [if_neg (by simp [hc])]
      simp only [Num.isZero, hdisc, r0]
      exact hD0)]
    simp only [hc, ne_eq, not_true_eq_false, if_false, r0, ← hD,
      Num.toInt, Num.add, Num.sub, Num.div, Num.toFlt, t0, r1, r2, r3, z0,
      r4, z1, z2, z3, r5, toInt_intCast, List.map_cons, List.map_nil, List.zip_cons_cons, List.zip_nil_left]
    push_cast
    rfl
  · obtain ⟨L, hL, hsp⟩ := C40_eig h hk hkv
    have hL' : Utils.eig v n l u = .ok [(((n : Int) : ℝ), 1), ((-1 + √(v : ℝ)) / 2, (n : Int)),
        ((-1 - √(v : ℝ)) / 2, (n : Int))] := by
      have t0 : (l : ℝ) - u = -1 := by exact_mod_cast (by omega : l - u = -1)
      have z3 : ((((v : Int) : ℝ)) - 1) / 2 = ((n : Int) : ℝ) := by
        have : ((v : Int) : ℝ) = 2 * n + 1 := by exact_mod_cast hvn
        rw [this]; push_cast; ring
      unfold Utils.eig
      simp only [hc, hdisc, ne_eq, not_true_eq_false, if_false, if_neg (by omega : ¬ (v : Int) < 0),
        Int.cast_natCast, if_neg (by linarith : √(v : ℝ) ≠ 0), Int.cast_zero, zero_div, sub_zero,
        add_zero, t0, List.map_cons, List.map_nil, List.zip_cons_cons, List.zip_nil_left]
      rw [show ((v : ℝ) - 1) / 2 = ((n : Int) : ℝ) by rw [← z3]; push_cast; ring, toInt_intCast]
    rw [hL'] at hL
    cases hL
    exact hsp
  · have b1 : Approx (1 + 2 / 2 ^ 53) (-1 + D) (-1 + √(v : ℝ)) := by
      unfold Approx
      rw [show -1 + D - (-1 + √(v : ℝ)) = D - √(v : ℝ) by ring, abs_of_nonneg (a := -1 + √(v : ℝ)) (by linarith)]
      refine aD.trans ?_
      norm_num
      linarith
    have b2 := ((approx_rnd hF (F.rnd (-1 + D) / 2)).trans
      ((approx_rnd hF (-1 + D)).trans b1 (by norm_num)).half (by norm_num)).mono
      (by norm_num : _ ≤ (1 + 5 / 2 ^ 53 : ℝ))
    unfold Approx at b2
    rwa [add_sub_cancel_left] at b2
  · have b1 : Approx (1 + 2 / 2 ^ 53) (-1 - D) (-1 - √(v : ℝ)) := by
      unfold Approx
      rw [show -1 - D - (-1 - √(v : ℝ)) = -(D - √(v : ℝ)) by ring, abs_neg,
        abs_of_nonpos (a := -1 - √(v : ℝ)) (by linarith)]
      refine aD.trans ?_
      norm_num
      linarith
    have b2 := ((approx_rnd hF (F.rnd (-1 - D) / 2)).trans
      ((approx_rnd hF (-1 - D)).trans b1 (by norm_num)).half (by norm_num)).mono
      (by norm_num : _ ≤ (1 + 5 / 2 ^ 53 : ℝ))
    unfold Approx at b2
    rwa [add_sub_cancel_left] at b2

theorem pyRound_near {x : ℝ} {n : Int} (h : |x - n| < 1 / 2) : pyRound x = n := by
  rw [abs_lt] at h
  have hf := Int.floor_le x
  have hf' := Int.lt_floor_add_one x
  unfold pyRound
  rcases lt_or_ge x n with hx | hx
  · have : ⌊x⌋ = n - 1 := by
      rw [Int.floor_eq_iff]; push_cast; constructor <;> linarith
    rw [this]
    push_cast
    rw [if_neg (by linarith), if_pos (by linarith)]
    ring
  · have : ⌊x⌋ = n := by
      rw [Int.floor_eq_iff]; constructor <;> linarith
    rw [this, if_pos (by linarith)]

theorem conf_mul (hv4 : (v : Int) = 4 * u + 1) :
    (-1 + √(v : ℝ)) / 2 * ((-1 - √(v : ℝ)) / 2) = -u := by
  have e : √(v : ℝ) * √(v : ℝ) = v := Real.mul_self_sqrt (by positivity)
  have e2 : (v : ℝ) = 4 * u + 1 := by exact_mod_cast hv4
  linear_combination -(1 / 4) * e - (1 / 4) * e2

/-- **C72.**  For conference graphs with at most 29 points the rounded product is still the
determinant. -/
theorem C72_conference_determinant (hE : Spec.ExactInts F.rnd) (hF : Spec.Accurate F.rnd F.pow)
    (h : Spec.IsSRG v k l u m) (hk : 0 < k) (hkv : k + 1 < v) (hv : v ≤ 29)
    (hc : conference v k l u = 0) : determinantF F v k l u = .ok (Spec.intMat v m).det := by
  obtain ⟨x, y, n, h1, h2, hvn, hx, hy⟩ := C72_conference_eig hE hF h hk hkv (by omega) hc
  obtain ⟨hu, hv4, hk2, hl⟩ := conf_params h hk hkv hc
  have hdet := det_of_spectrum h2
  rw [det_cast] at hdet
  simp only [List.map_cons, List.map_nil, List.prod_cons, List.prod_nil, mul_one, Int.toNat_one,
    pow_one, Int.toNat_natCast] at hdet
  have hab := conf_mul hv4
  generalize (-1 + √(v : ℝ)) / 2 = a at *
  generalize (-1 - √(v : ℝ)) / 2 = b at *
  have hkr : F.rnd (k : ℝ) = k := hE k (by rw [abs_le]; omega)
  unfold determinantF
  rw [h1]
  simp only [Except.bind, prodLoopF, Num.mul, Num.pow, Num.isZero, Num.toFlt,
    not_lt.2 (Int.natCast_nonneg n), and_false, if_false, Num.round, zero_le_one, if_true,
    Int.toNat_one, pow_one, one_mul, if_neg (by norm_num : ¬ ((k = 0) ∧ (1 : Int) < 0))]
  congr 1
  apply pyRound_near
  rw [hkr]
  have ax : Approx (1 + 5 / 2 ^ 53) x a := by unfold Approx; rwa [add_sub_cancel_left]
  have ay : Approx (1 + 5 / 2 ^ 53) y b := by unfold Approx; rwa [add_sub_cancel_left]
  have px := (approx_pow hF x n).trans (ax.pow n) (by norm_num)
  have py := (approx_pow hF y n).trans (ay.pow n) (by norm_num)
  have c1 : (1 : ℝ) ≤ (1 + 5 / 2 ^ 53) ^ n := one_le_pow₀ (by norm_num)
  have c2 : (1 + 5 / 2 ^ 53 : ℝ) ^ n ≤ (1 + 5 / 2 ^ 53) ^ 14 :=
    pow_le_pow_right₀ (by norm_num) (by omega)
  have c3 : (1 : ℝ) ≤ (1 + 1 / 2 ^ 52) * (1 + 5 / 2 ^ 53) ^ n := by
    apply one_le_mul_of_one_le_of_one_le (by norm_num) c1
  have p1 := (approx_rnd hF (k * F.pow x n)).trans ((Approx.refl (k : ℝ)).mul px) (by norm_num)
  have p2 := (approx_rnd hF (F.rnd (k * F.pow x n) * F.pow y n)).trans (p1.mul py) (by norm_num)
  have p3 := p2.mono (d := 1 + 200 / 2 ^ 53) (by
    have e : (1 + 1 / 2 ^ 52 : ℝ) * (1 + 5 / 2 ^ 53) ^ n ≤ (1 + 1 / 2 ^ 52) * (1 + 5 / 2 ^ 53) ^ 14 :=
      mul_le_mul_of_nonneg_left c2 (by norm_num)
    have e2 : ((1 + 1 / 2 ^ 52 : ℝ) * (1 + 5 / 2 ^ 53) ^ n) * ((1 + 1 / 2 ^ 52) * (1 + 5 / 2 ^ 53) ^ n) ≤
        ((1 + 1 / 2 ^ 52 : ℝ) * (1 + 5 / 2 ^ 53) ^ 14) * ((1 + 1 / 2 ^ 52) * (1 + 5 / 2 ^ 53) ^ 14) :=
      mul_le_mul e e (by linarith) (by positivity)
    calc _ = (1 + 1 / 2 ^ 53 : ℝ) ^ 2 * (((1 + 1 / 2 ^ 52 : ℝ) * (1 + 5 / 2 ^ 53) ^ n) *
          ((1 + 1 / 2 ^ 52) * (1 + 5 / 2 ^ 53) ^ n)) := by ring
      _ ≤ (1 + 1 / 2 ^ 53 : ℝ) ^ 2 * (((1 + 1 / 2 ^ 52 : ℝ) * (1 + 5 / 2 ^ 53) ^ 14) *
          ((1 + 1 / 2 ^ 52) * (1 + 5 / 2 ^ 53) ^ 14)) := mul_le_mul_of_nonneg_left e2 (by positivity)
      _ ≤ _ := by norm_num)
  unfold Approx at p3
  rw [add_sub_cancel_left, mul_assoc, ← hdet] at p3
  refine p3.trans_lt ?_
  have hb : |((Spec.intMat v m).det : ℝ)| ≤ 14 * 7 ^ 14 := by
    have hu1 : (1 : ℝ) ≤ u := by exact_mod_cast hu
    have hu7 : (u : ℝ) ≤ 7 := by exact_mod_cast (by omega : u ≤ 7)
    have hk14 : (k : ℝ) ≤ 14 := by exact_mod_cast (by omega : k ≤ 14)
    have hk0 : (0 : ℝ) ≤ k := by exact_mod_cast hk.le
    rw [hdet, ← mul_pow, hab, abs_mul, abs_pow, abs_neg, abs_of_nonneg hk0,
      abs_of_nonneg (by linarith : (0 : ℝ) ≤ u)]
    refine mul_le_mul hk14 ?_ (by positivity) (by norm_num)
    exact (pow_le_pow_left₀ (by linarith) hu7 n).trans (pow_le_pow_right₀ (by norm_num) (by omega))
  calc (200 / 2 ^ 53 : ℝ) * |((Spec.intMat v m).det : ℝ)| ≤ 200 / 2 ^ 53 * (14 * 7 ^ 14) :=
        mul_le_mul_of_nonneg_left hb (by norm_num)
    _ < 1 / 2 := by norm_num

/-- A number with 53 binary digits rounds to an integer with 53 binary digits. -/
theorem bits53_round {x : ℝ} (h : Spec.Bits53 x) : Spec.Bits53 (pyRound x) := by
  obtain ⟨n, e, hn, rfl⟩ := h
  rcases le_or_gt 0 e with he | he
  · obtain ⟨e, rfl⟩ := Int.eq_ofNat_of_zero_le he
    have : (n : ℝ) * 2 ^ (e : Int) = ((n * 2 ^ e : Int) : ℝ) := by push_cast; simp
    rw [this, pyRound_intCast]
    exact ⟨n, e, hn, by push_cast; simp⟩
  · set x := (n : ℝ) * 2 ^ e with hx
    have hx1 : |x| ≤ 2 ^ 53 := by
      have h1 : (2 : ℝ) ^ e ≤ 1 := zpow_le_one_of_nonpos₀ (by norm_num) he.le
      have h2 : |(n : ℝ)| ≤ 2 ^ 53 := by exact_mod_cast hn
      rw [hx, abs_mul, abs_of_pos (by positivity : (0 : ℝ) < 2 ^ e)]
      calc |(n : ℝ)| * 2 ^ e ≤ 2 ^ 53 * 1 := mul_le_mul h2 h1 (by positivity) (by positivity)
        _ = _ := by ring
    rw [abs_le] at hx1
    refine ⟨pyRound x, 0, ?_, by simp⟩
    have f1 : -(2 ^ 53) ≤ ⌊x⌋ := Int.le_floor.2 (by push_cast; linarith)
    have f2 : ⌊x⌋ ≤ 2 ^ 53 := by exact_mod_cast (Int.floor_le x).trans hx1.2
    have f3 : x - ⌊x⌋ ≠ 0 → ⌊x⌋ < 2 ^ 53 := by
      intro h0
      refine lt_of_le_of_ne f2 fun h1 => h0 ?_
      have := Int.floor_le x
      rw [h1] at this ⊢
      push_cast at this ⊢
      linarith
    unfold pyRound
    rw [abs_le]
    split_ifs with g1 g2 g3
    · exact ⟨f1, f2⟩
    · have := f3 (by linarith)
      omega
    · exact ⟨f1, f2⟩
    · have := f3 (by linarith)
      omega

/-- **C72.**  For conference graphs `determinant` cannot return a number that does not have 53 binary
digits. -/
theorem C72_digits (hB : ∀ x, Spec.Bits53 (F.rnd x)) (hc : conference v k l u = 0) {n : Int}
    (h : determinantF F v k l u = .ok n) : Spec.Bits53 n := by
  unfold determinantF at h
  obtain ⟨L, h1, h⟩ := bind_eq_ok.1 h
  obtain ⟨P, h2, h⟩ := bind_eq_ok.1 h
  cases h
  unfold eigF at h1
  by_cases g1 : (l - u) ^ 2 + 4 * (k - u) < 0
  · simp only [if_pos g1] at h1
    cases h1
  by_cases g2 : (if conference v k l u ≠ 0 then
      Num.int (Num.flt (F.rnd √(F.rnd ((l - u) ^ 2 + 4 * (k - u) : Int)))).toInt
      else Num.flt (F.rnd √(F.rnd ((l - u) ^ 2 + 4 * (k - u) : Int)))).isZero
  · simp only [if_neg g1, if_pos g2] at h1
    cases h1
  simp only [if_neg g1, if_neg g2] at h1
  simp only [hc, ne_eq, not_true_eq_false, if_false, Except.ok.injEq] at h1
  subst h1
  simp only [List.map_cons, List.map_nil, List.zip_cons_cons, List.zip_nil_left, Num.add, Num.sub,
    Num.div, prodLoopF, Num.mul, Num.pow] at h2
  split_ifs at h2 <;> cases h2 <;> exact bits53_round (hB _)

/-- The determinant of a conference graph. -/
theorem det_conf (h : Spec.IsSRG v k l u m) (hk : 0 < k) (hkv : k + 1 < v) (hv : v ≤ 2 ^ 53)
    (hc : conference v k l u = 0) : (Spec.intMat v m).det = k * (-u) ^ k.toNat := by
  obtain ⟨x, y, n, h1, h2, hvn, hx, hy⟩ := C72_conference_eig (F := ⟨id, fun x n => x ^ n⟩)
    (fun _ _ => rfl) ⟨fun x => by simp, fun x n => by simp; positivity⟩ h hk hkv hv hc
  obtain ⟨hu, hv4, hk2, hl⟩ := conf_params h hk hkv hc
  have hdet := det_of_spectrum h2
  rw [det_cast] at hdet
  simp only [List.map_cons, List.map_nil, List.prod_cons, List.prod_nil, mul_one, Int.toNat_one,
    pow_one, Int.toNat_natCast] at hdet
  rw [← mul_pow, conf_mul hv4] at hdet
  rw [show k.toNat = n by omega]
  exact_mod_cast hdet

/-- **C72.**  For the parameters (37,18,8,9) `determinant` never returns the determinant. -/
theorem C72_wrong (hB : ∀ x, Spec.Bits53 (F.rnd x)) (h : Spec.IsSRG 37 18 8 9 m) :
    determinantF F 37 18 8 9 ≠ .ok (Spec.intMat 37 m).det := by
  intro h1
  obtain ⟨n, e, hn, h2⟩ := C72_digits (v := 37) hB (by decide) h1
  have hd : (Spec.intMat 37 m).det = 2 * 3 ^ 38 := by
    rw [det_conf h (by decide) (by decide) (by decide) (by decide)]
    decide +kernel
  rw [hd] at h2
  rcases le_or_gt e 1 with he | he
  · have h3 : (2 : ℝ) ^ e ≤ 2 ^ (1 : Int) := zpow_le_zpow_right₀ (by norm_num) he
    have h4 : |(n : ℝ)| ≤ 2 ^ 53 := by exact_mod_cast hn
    have h5 : |(n : ℝ) * 2 ^ e| ≤ 2 ^ 53 * 2 ^ (1 : Int) := by
      rw [abs_mul, abs_of_pos (by positivity : (0 : ℝ) < 2 ^ e)]
      exact mul_le_mul h4 h3 (by positivity) (by positivity)
    rw [← h2] at h5
    norm_num at h5
  · obtain ⟨e, rfl⟩ := Int.eq_ofNat_of_zero_le (by omega : 0 ≤ e)
    have h3 : (2 * 3 ^ 38 : Int) = n * 2 ^ e := by exact_mod_cast h2
    obtain ⟨e, rfl⟩ : ∃ e', e = e' + 2 := ⟨e - 2, by omega⟩
    have h4 : (4 : Int) ∣ 2 * 3 ^ 38 := ⟨n * 2 ^ e, by rw [h3, pow_add]; ring⟩
    norm_num at h4

/-- **C72.**  Outside the conference case `test_determinant` needs the eigenvalues of the matrices only
up to (less than) 1/2: what it accepts does not depend on the rounding. -/
theorem C72_test {ev eigvals : Mat → List ℝ} {prod : List ℝ → ℝ} (he : Spec.IsEigvals ev)
    (hF : Spec.ExactInts F.rnd) {db : List Mat} (h : ∀ m ∈ db, Spec.IsSRG v k l u m) (hk : 0 < k)
    (hkv : k + 1 < v) (hv : v ≤ 2 ^ 25) (hc : conference v k l u ≠ 0)
    (ha : ∀ m ∈ db, List.Forall₂ (fun x y => |x - y| < 1 / 2) (eigvals m) (ev m)) {d : Int}
    (hd : determinantF F v k l u = .ok d) :
    Tests.testDeterminantF F eigvals prod v k l u db = .ok () ↔
      db = [] ∨ (-2 ^ 63 ≤ d ∧ d < 2 ^ 63) := by
  by_cases hdb : db = []
  · subst hdb
    simp only [Tests.testDeterminantF, hd, ok_bind, true_or, iff_true]
    rfl
  obtain ⟨m₀, hm₀⟩ := List.exists_mem_of_ne_nil db hdb
  have hd' : determinant v k l u = .ok d := by
    rw [C40_determinant (h m₀ hm₀) hk hkv, ← C72_determinant hF (h m₀ hm₀) hk hkv hv hc, hd]
  have hiff := C52_determinant he h hk hkv hd'
  have hc' : 2 * k + ((v : Int) - 1) * (l - u) ≠ 0 := hc
  rw [or_iff_right hc'] at hiff
  rw [← hiff]
  unfold Tests.testDeterminantF Tests.testDeterminant
  rw [hd, hd', ok_bind, ok_bind, forM_ok, forM_ok]
  refine forall₂_congr fun m hm => ?_
  have key : (eigvals m).map pyRound = (ev m).map pyRound := by
    have hint := eigvals_int he (h m hm) hk hkv hc'
    have hf := ha m hm
    generalize eigvals m = A at *
    generalize ev m = B at *
    induction hf with
    | nil => rfl
    | @cons x y A B hxy _ ih =>
      obtain ⟨n, rfl⟩ := hint y (by simp)
      rw [List.map_cons, List.map_cons, ih (fun z hz => hint z (by simp [hz])), pyRound_near hxy,
        pyRound_intCast]
  simp only [ne_eq, hc, not_false_eq_true, if_true, key]

/-- **C72.**  For conference graphs with at most 29 points `test_determinant` passes if the product of
the eigenvalues is computed up to (less than) 1/2. -/
theorem C72_test_conference {eigvals : Mat → List ℝ} {prod : List ℝ → ℝ}
    (hE : Spec.ExactInts F.rnd) (hF : Spec.Accurate F.rnd F.pow) {db : List Mat}
    (h : ∀ m ∈ db, Spec.IsSRG v k l u m) (hne : db ≠ []) (hk : 0 < k) (hkv : k + 1 < v) (hv : v ≤ 29)
    (hc : conference v k l u = 0)
    (ha : ∀ m ∈ db, |prod (eigvals m) - (Spec.realMat v m).det| < 1 / 2) :
    Tests.testDeterminantF F eigvals prod v k l u db = .ok () := by
  obtain ⟨m₀, hm₀⟩ := List.exists_mem_of_ne_nil db hne
  unfold Tests.testDeterminantF
  rw [C72_conference_determinant hE hF (h m₀ hm₀) hk hkv hv hc, ok_bind, forM_ok]
  intro m hm
  have e : (Spec.intMat v m).det = (Spec.intMat v m₀).det := by
    rw [det_conf (h m hm) hk hkv (by omega) hc, det_conf (h m₀ hm₀) hk hkv (by omega) hc]
  have := ha m hm
  rw [det_cast] at this
  simp only [hc, ne_eq, not_true_eq_false, if_false, pyRound_near this, e, if_true]

end

theorem stored_small : ∀ e ∈ Database.entries, e.v ≤ 29 := by decide +kernel

/-- **C72.**  For all stored parameters `determinant` is right in spite of rounding. -/
theorem C72_stored {F : Flt} (hE : Spec.ExactInts F.rnd) (hF : Spec.Accurate F.rnd F.pow) {v k l u : Nat}
    {sols : List Mat} (h : Database.getSolutions Database.modules v k l u = .ok sols) :
    ∀ m ∈ sols, determinantF F v k l u = .ok (Spec.intMat v m).det := by
  intro m hm
  have hs : Spec.IsSRG v k l u m := (C41_stored_srg h).2 m hm
  obtain ⟨name, rows, hent, -⟩ := get_entry h
  have hr := stored_range _ hent
  have h29 := stored_small _ hent
  simp only at hr h29
  by_cases hc : conference v k l u = 0
  · exact C72_conference_determinant hE hF hs (by omega) (by omega) h29 hc
  · exact C72_determinant hE hs (by omega) (by omega) (by omega) hc

/-! ### Non-vacuity -/

/-- Rounding to the nearest number with 53 binary digits. -/
noncomputable def nearest53 (x : ℝ) : ℝ :=
  round (x / 2 ^ (Int.log 2 |x| - 52)) * 2 ^ (Int.log 2 |x| - 52)

theorem nearest53_scale {x : ℝ} (hx : x ≠ 0) :
    (2 : ℝ) ^ (52 : Int) ≤ |x / 2 ^ (Int.log 2 |x| - 52)| ∧
      |x / 2 ^ (Int.log 2 |x| - 52)| < 2 ^ (53 : Int) := by
  have hx' : 0 < |x| := abs_pos.2 hx
  have h1 : (2 : ℝ) ^ Int.log 2 |x| ≤ |x| := by exact_mod_cast Int.zpow_log_le_self (b := 2) (by norm_num) hx'
  have h2 : |x| < (2 : ℝ) ^ (Int.log 2 |x| + 1) := by
    exact_mod_cast Int.lt_zpow_succ_log_self (b := 2) (by norm_num) |x|
  rw [abs_div, abs_of_pos (by positivity : (0 : ℝ) < 2 ^ (Int.log 2 |x| - 52)),
    le_div_iff₀ (by positivity), div_lt_iff₀ (by positivity), ← zpow_add₀ (by norm_num),
    ← zpow_add₀ (by norm_num)]
  exact ⟨by rwa [add_sub_cancel], by rwa [show (53 : Int) + (Int.log 2 |x| - 52) = Int.log 2 |x| + 1 by ring]⟩

theorem nearest53_bits (x : ℝ) : Spec.Bits53 (nearest53 x) := by
  refine ⟨_, _, ?_, rfl⟩
  by_cases hx : x = 0
  · subst hx; simp
  obtain ⟨-, h⟩ := nearest53_scale hx
  generalize x / 2 ^ (Int.log 2 |x| - 52) = y at *
  have h1 : |(round y : ℝ)| < 2 ^ 53 + 1 := by
    have := abs_sub_round y
    have := abs_sub_abs_le_abs_sub (round y : ℝ) y
    rw [abs_sub_comm] at this
    norm_num at h
    norm_num
    linarith
  have h2 : |round y| < 2 ^ 53 + 1 := by exact_mod_cast h1
  omega

theorem nearest53_near (x : ℝ) : |nearest53 x - x| ≤ 1 / 2 ^ 53 * |x| := by
  by_cases hx : x = 0
  · subst hx; simp [nearest53]
  obtain ⟨h, -⟩ := nearest53_scale hx
  unfold nearest53
  generalize hp : (2 : ℝ) ^ (Int.log 2 |x| - 52) = p at *
  have hp0 : 0 < p := by rw [← hp]; positivity
  have hxy : x = x / p * p := by field_simp
  generalize x / p = y at *
  rw [hxy, ← sub_mul, abs_mul, abs_mul, abs_of_pos hp0, ← mul_assoc]
  apply mul_le_mul_of_nonneg_right _ hp0.le
  have := abs_sub_round y
  rw [abs_sub_comm] at this
  norm_num at h ⊢
  linarith

theorem nearest53_int : Spec.ExactInts nearest53 := by
  intro n hn
  by_cases hx : (n : ℝ) = 0
  · rw [hx]; simp [nearest53]
  have hx' : 0 < |(n : ℝ)| := abs_pos.2 hx
  have h1 : (2 : ℝ) ^ Int.log 2 |(n : ℝ)| ≤ |(n : ℝ)| := by
    exact_mod_cast Int.zpow_log_le_self (b := 2) (by norm_num) hx'
  have h2 : |(n : ℝ)| ≤ 2 ^ (53 : Int) := by exact_mod_cast hn
  have h3 : Int.log 2 |(n : ℝ)| ≤ 53 :=
    (zpow_le_zpow_iff_right₀ (by norm_num : (1 : ℝ) < 2)).1 (h1.trans h2)
  obtain ⟨z, hz⟩ : ∃ z : Int, (n : ℝ) / 2 ^ (Int.log 2 |(n : ℝ)| - 52) = z := by
    rcases eq_or_lt_of_le h3 with h4 | h4
    · rw [h4] at h1 ⊢
      have h5 : |(n : ℝ)| = 2 ^ (53 : Int) := le_antisymm h2 h1
      rcases abs_choice (n : ℝ) with h6 | h6
      · exact ⟨2 ^ 52, by rw [← h6, h5]; norm_num⟩
      · exact ⟨-2 ^ 52, by rw [show (n : ℝ) = -|(n : ℝ)| by rw [h6, neg_neg], h5]; norm_num⟩
    · refine ⟨n * 2 ^ (52 - Int.log 2 |(n : ℝ)|).toNat, ?_⟩
      push_cast
      rw [div_eq_mul_inv, ← zpow_neg, neg_sub, ← zpow_natCast, Int.toNat_of_nonneg (by omega)]
  unfold nearest53
  rw [hz, round_intCast, ← hz, div_mul_cancel₀ _ (by positivity)]

/-- A floating-point arithmetic with all the required properties. -/
noncomputable def flt53 : Flt := ⟨nearest53, fun x n => nearest53 (x ^ n)⟩

theorem flt53_ok : Spec.ExactInts flt53.rnd ∧ Spec.Accurate flt53.rnd flt53.pow ∧
    ∀ x, Spec.Bits53 (flt53.rnd x) := by
  refine ⟨nearest53_int, ⟨nearest53_near, fun x n => (nearest53_near _).trans ?_⟩, nearest53_bits⟩
  exact mul_le_mul_of_nonneg_right (by norm_num) (abs_nonneg _)

/-- The squares modulo 37 other than zero. -/
def squares37 : List Nat := [1, 3, 4, 7, 9, 10, 11, 12, 16, 21, 25, 26, 27, 28, 30, 33, 34, 36]

/-- Numbers modulo 37, adjacent if their difference is a square. -/
def paley37 : List Nat := (List.range 37).map fun i =>
  ((List.range 37).map fun j => if (37 + j - i) % 37 ∈ squares37 then 2 ^ (36 - j) else 0).sum

theorem paley37_srg : Spec.IsSRG 37 18 8 9 (Database.bitMat 37 paley37) :=
  Database.check_sound (k := 18) (l := 8) (u := 9) (by decide +kernel)

/-- Non-vacuity of `C72_wrong`. -/
example : determinantF flt53 37 18 8 9 ≠ .ok (Spec.intMat 37 (Database.bitMat 37 paley37)).det :=
  C72_wrong flt53_ok.2.2 paley37_srg

/-- Non-vacuity: the Petersen graph. -/
example : determinantF flt53 10 3 0 1 = determinant 10 3 0 1 ∧ conference 10 3 0 1 ≠ 0 := by
  have h : Spec.IsSRG 10 3 0 1 (Database.bitMat 10 [448, 560, 524, 515, 266, 261, 161, 146, 100, 88]) :=
    Database.check_sound (k := 3) (l := 0) (u := 1) (by decide +kernel)
  exact ⟨(C72_determinant (v := 10) flt53_ok.1 h (by decide) (by decide) (by decide) (by decide)).trans
    (C40_determinant (v := 10) h (by decide) (by decide)).symm, by decide⟩

/-- Non-vacuity: the pentagon. -/
example : determinantF flt53 5 2 0 1 = .ok 2 := by
  have h : Spec.IsSRG 5 2 0 1 (Database.bitMat 5 [12, 18, 17, 9, 6]) :=
    Database.check_sound (k := 2) (l := 0) (u := 1) (by decide +kernel)
  rw [show (5 : Int) = ((5 : Nat) : Int) from rfl, C72_conference_determinant flt53_ok.1 flt53_ok.2.1 h
    (by decide) (by decide) (by decide) (by decide),
    det_conf h (by decide) (by decide) (by decide) (by decide)]
  rfl

end TDS
