import Verif.Props.Float

/-! # C40, C72: when `eig` and `determinant` fail, for any integers -/

namespace TDS

namespace Spec

/-- `n` is `x` without its digits behind the point. -/
def Trunc (x : ℝ) (n : Int) : Prop := |(n : ℝ)| ≤ |x| ∧ |x - n| < 1 ∧ 0 ≤ x * n

end Spec

open Utils

section

variable {k l u n : Int}

/-- The product the loop computes, or the failure, for any list. -/
theorem prodLoop_all (L : List (ℝ × Int)) (x : ℝ) :
    ((∃ p ∈ L, p.1 = 0 ∧ p.2 < 0) → prodLoop L x = .error .zeroDiv) ∧
    ((¬ ∃ p ∈ L, p.1 = 0 ∧ p.2 < 0) → prodLoop L x = .ok (x * (L.map fun p => p.1 ^ p.2).prod)) := by
  induction L generalizing x with
  | nil => simp [prodLoop]
  | cons p L ih =>
    obtain ⟨e, m⟩ := p
    rw [prodLoop]
    by_cases h : e = 0 ∧ m < 0
    · rw [if_pos h]
      exact ⟨fun _ => rfl, fun h1 => absurd ⟨_, List.mem_cons_self, h⟩ h1⟩
    · rw [if_neg h]
      refine ⟨fun h1 => (ih _).1 ?_, fun h1 => ?_⟩
      · obtain ⟨q, hq, h2⟩ := h1
        rcases List.mem_cons.1 hq with rfl | hq
        · exact absurd h2 h
        · exact ⟨q, hq, h2⟩
      · rw [(ih _).2 fun ⟨q, hq, h2⟩ => h1 ⟨q, List.mem_cons_of_mem _ hq, h2⟩]
        simp [mul_assoc]

theorem pyRound_half (x : ℝ) : |(pyRound x : ℝ) - x| ≤ 1 / 2 ∧ (|(pyRound x : ℝ) - x| = 1 / 2 → 2 ∣ pyRound x) := by
  have h1 := Int.floor_le x
  have h2 := Int.lt_floor_add_one x
  unfold pyRound
  constructor
  · split_ifs <;> rw [abs_le] <;> push_cast <;> constructor <;> linarith
  · split_ifs with h3 h4 h5
    · intro h
      rw [abs_sub_comm, abs_of_nonneg (by linarith)] at h
      linarith
    · intro h
      push_cast at h
      rw [abs_of_nonneg (by linarith)] at h
      linarith
    · intro _; omega
    · intro _; omega

/-- **C40.**  When `eig` fails, for any integers: the number under the root is negative (ValueError) or
zero (ZeroDivisionError, or ValueError if `conference` is zero).  If it is positive there is a result,
three pairs of a value and a multiplicity, and the first is the degree, once. -/
theorem C40_errors :
    ((l - u) ^ 2 + 4 * (k - u) < 0 → eig n k l u = .error .valueErr) ∧
    ((l - u) ^ 2 + 4 * (k - u) = 0 → conference n k l u ≠ 0 → eig n k l u = .error .zeroDiv) ∧
    ((l - u) ^ 2 + 4 * (k - u) = 0 → conference n k l u = 0 → eig n k l u = .error .valueErr) ∧
    (0 < (l - u) ^ 2 + 4 * (k - u) → ∃ p q, eig n k l u = .ok [((k : ℝ), 1), p, q]) := by
  refine ⟨fun h => ?_, fun h hc => ?_, fun h hc => ?_, fun h => ?_⟩
  · unfold eig
    simp only [if_pos h]
  · unfold eig
    simp only [h, lt_irrefl, if_false, Int.cast_zero, Real.sqrt_zero, ne_eq, hc,
      not_false_eq_true, if_true]
    rw [if_pos (by simpa using toInt_intCast 0)]
  · unfold eig
    simp only [h, lt_irrefl, if_false, Int.cast_zero, Real.sqrt_zero, ne_eq, hc,
      not_true_eq_false, if_true]
  · generalize hd : (l - u) ^ 2 + 4 * (k - u) = d at h
    have hpos : 1 ≤ √(d : ℝ) := by
      apply Real.le_sqrt_of_sq_le
      have : (1 : ℝ) ≤ d := by exact_mod_cast h
      simpa using this
    unfold eig
    simp only [hd, if_neg (not_lt.2 h.le)]
    by_cases hc : conference n k l u = 0
    · simp only [hc, ne_eq, not_true_eq_false, if_false]
      rw [if_neg (by linarith)]
      exact ⟨_, _, rfl⟩
    · simp only [hc, ne_eq, not_false_eq_true, if_true]
      have : ¬ ((Utils.toInt √(d : ℝ) : Int) : ℝ) = 0 := by
        unfold Utils.toInt
        rw [if_pos (by linarith)]
        have := Int.le_floor.2 (by simpa using hpos : ((1 : Int) : ℝ) ≤ √(d : ℝ))
        exact_mod_cast (by omega : ¬ ⌊√(d : ℝ)⌋ = 0)
      rw [if_neg this]
      simp only [List.map_cons, toInt_intCast, List.zip_cons_cons]
      exact ⟨_, _, rfl⟩

theorem toInt_trunc (x : ℝ) : Spec.Trunc x (toInt x) := by
  unfold Spec.Trunc toInt
  have h1 := Int.floor_le x
  have h2 := Int.lt_floor_add_one x
  have h3 := Int.le_ceil x
  have h4 := Int.ceil_lt_add_one x
  split_ifs with h
  · have h5 : (0 : ℝ) ≤ ⌊x⌋ := by exact_mod_cast Int.floor_nonneg.2 h
    rw [abs_of_nonneg h5, abs_of_nonneg h, abs_of_nonneg (by linarith)]
    exact ⟨h1, by linarith, mul_nonneg h h5⟩
  · push Not at h
    have h5 : ((⌈x⌉ : Int) : ℝ) ≤ 0 := by
      have : ⌈x⌉ ≤ 0 := Int.ceil_le.2 (by simpa using h.le)
      exact_mod_cast this
    rw [abs_of_nonpos h5, abs_of_neg h, abs_of_nonpos (by linarith)]
    exact ⟨by linarith, by linarith, mul_nonneg_of_nonpos_of_nonpos h.le h5⟩

/-- **C40.**  What `eig` returns for any integers when the number under the root is positive: with `conference` zero
the roots and twice half of `v - 1`, otherwise everything loses its digits behind the point. -/
theorem C40_values (h : 0 < (l - u) ^ 2 + 4 * (k - u)) : ∃ (a b : ℝ) (f g : Int),
    eig n k l u = .ok [((k : ℝ), 1), (a, f), (b, g)] ∧
    (conference n k l u = 0 → a = ((l - u : ℝ) + √((l - u) ^ 2 + 4 * (k - u))) / 2 ∧
      b = ((l - u : ℝ) - √((l - u) ^ 2 + 4 * (k - u))) / 2 ∧ Spec.Trunc ((n - 1) / 2) f ∧ g = f) ∧
    (conference n k l u ≠ 0 → ∃ d a' b' : Int, Spec.Trunc √((l - u) ^ 2 + 4 * (k - u)) d ∧
      Spec.Trunc ((l - u + d) / 2) a' ∧ Spec.Trunc ((l - u - d) / 2) b' ∧ a = a' ∧ b = b' ∧
      Spec.Trunc ((n - 1 - (2 * k + (n - 1) * (l - u)) / d) / 2) f ∧
      Spec.Trunc ((n - 1 + (2 * k + (n - 1) * (l - u)) / d) / 2) g) := by
  have hcast : ((((l - u) ^ 2 + 4 * (k - u) : Int)) : ℝ) = ((l - u) ^ 2 + 4 * (k - u) : ℝ) := by push_cast; ring
  have hconf : ((conference n k l u : Int) : ℝ) = 2 * k + (n - 1) * (l - u) := by unfold conference; push_cast; ring
  have hpos : 1 ≤ √((l - u) ^ 2 + 4 * (k - u) : ℝ) := by
    apply Real.le_sqrt_of_sq_le
    rw [← hcast]
    have : (1 : ℝ) ≤ (((l - u) ^ 2 + 4 * (k - u) : Int) : ℝ) := by exact_mod_cast h
    simpa using this
  unfold eig
  simp only [if_neg (not_lt.2 h.le), hcast]
  by_cases hc : conference n k l u = 0
  · simp only [hc, ne_eq, not_true_eq_false, if_false]
    rw [if_neg (by linarith)]
    refine ⟨_, _, _, _, rfl, fun _ => ⟨rfl, rfl, ?_, ?_⟩, fun h => h.elim⟩
    · convert toInt_trunc _ using 1
      simp
    · simp
  · simp only [hc, ne_eq, not_false_eq_true, if_true]
    have : ¬ ((Utils.toInt √((l - u) ^ 2 + 4 * (k - u) : ℝ) : Int) : ℝ) = 0 := by
      unfold Utils.toInt
      rw [if_pos (by linarith)]
      have := Int.le_floor.2 (by simpa using hpos : ((1 : Int) : ℝ) ≤ √((l - u) ^ 2 + 4 * (k - u) : ℝ))
      exact_mod_cast (by omega : ¬ ⌊√((l - u) ^ 2 + 4 * (k - u) : ℝ)⌋ = 0)
    rw [if_neg this]
    simp only [List.map_cons, List.map_nil, toInt_intCast, List.zip_cons_cons, List.zip_nil_left]
    refine ⟨_, _, _, _, rfl, fun h => h.elim, fun _ => ⟨_, _, _, toInt_trunc _, toInt_trunc _, toInt_trunc _, rfl, rfl,
      ?_, ?_⟩⟩
    · rw [← hconf]; exact toInt_trunc _
    · rw [← hconf]; exact toInt_trunc _

/-- `Trunc` determines the number. -/
theorem trunc_unique {x : ℝ} {m n : Int} (h : Spec.Trunc x m) (h' : Spec.Trunc x n) : m = n := by
  obtain ⟨a1, a2, a3⟩ := h
  obtain ⟨b1, b2, b3⟩ := h'
  by_contra hne
  rw [abs_lt] at a2 b2
  rcases lt_trichotomy x 0 with hx | hx | hx
  · have hm : (m : ℝ) ≤ 0 := by nlinarith
    have hn : (n : ℝ) ≤ 0 := by nlinarith
    rw [abs_of_nonpos hm, abs_of_neg hx] at a1
    rw [abs_of_nonpos hn, abs_of_neg hx] at b1
    rcases lt_or_gt_of_ne hne with h | h
    · have : (m : ℝ) + 1 ≤ n := by exact_mod_cast h
      linarith
    · have : (n : ℝ) + 1 ≤ m := by exact_mod_cast h
      linarith
  · subst hx
    simp only [abs_zero, abs_nonpos_iff, Int.cast_eq_zero] at a1 b1
    exact hne (a1.trans b1.symm)
  · have hm : 0 ≤ (m : ℝ) := by nlinarith
    have hn : 0 ≤ (n : ℝ) := by nlinarith
    rw [abs_of_nonneg hm, abs_of_pos hx] at a1
    rw [abs_of_nonneg hn, abs_of_pos hx] at b1
    rcases lt_or_gt_of_ne hne with h | h
    · have : (m : ℝ) + 1 ≤ n := by exact_mod_cast h
      linarith
    · have : (n : ℝ) + 1 ≤ m := by exact_mod_cast h
      linarith

/-- **C40.**  What `determinant` does with the result of `eig`, for any integers: if zero occurs with a
negative multiplicity it fails, otherwise it returns the integer next to the product of the powers, and the even one
of two. -/
theorem C40_zero {L : List (ℝ × Int)} (h : eig n k l u = .ok L) :
    ((∃ p ∈ L, p.1 = 0 ∧ p.2 < 0) → determinant n k l u = .error .zeroDiv) ∧
    ((¬ ∃ p ∈ L, p.1 = 0 ∧ p.2 < 0) → ∃ d : Int, determinant n k l u = .ok d ∧
      |(d : ℝ) - (L.map fun p => p.1 ^ p.2).prod| ≤ 1 / 2 ∧
      (|(d : ℝ) - (L.map fun p => p.1 ^ p.2).prod| = 1 / 2 → 2 ∣ d)) := by
  unfold determinant
  rw [h]
  refine ⟨fun h1 => ?_, fun h1 => ?_⟩
  · simp only [Except.bind, (prodLoop_all L 1).1 h1]
  · refine ⟨_, by simp only [Except.bind, (prodLoop_all L 1).2 h1, one_mul], pyRound_half _⟩

variable {F : Flt}

theorem prodLoopF_all (F : Flt) (L : List (Num × Int)) (x : Num) :
    prodLoopF F L x = .error .zeroDiv ∧ (∃ p ∈ L, p.1.isZero ∧ p.2 < 0) ∨
    (∃ y, prodLoopF F L x = .ok y) ∧ ¬ ∃ p ∈ L, p.1.isZero ∧ p.2 < 0 := by
  induction L generalizing x with
  | nil => exact Or.inr ⟨⟨x, rfl⟩, by simp⟩
  | cons p L ih =>
    obtain ⟨e, m⟩ := p
    rw [prodLoopF]
    by_cases h : e.isZero ∧ m < 0
    · rw [if_pos h]
      exact Or.inl ⟨rfl, _, List.mem_cons_self, h⟩
    · rw [if_neg h]
      rcases ih (x.mul F (e.pow F m)) with ⟨h1, q, hq, h2⟩ | ⟨h1, h2⟩
      · exact Or.inl ⟨h1, q, List.mem_cons_of_mem _ hq, h2⟩
      · refine Or.inr ⟨h1, fun ⟨q, hq, h3⟩ => ?_⟩
        rcases List.mem_cons.1 hq with rfl | hq
        · exact h h3
        · exact h2 ⟨q, hq, h3⟩

/-- **C72.**  With rounding as well `determinant` fails after `eig` exactly when zero occurs with a
negative multiplicity (outside the conference case, where the values are Python integers). -/
theorem C72_zero {L : List (Num × Int)} (hc : conference n k l u ≠ 0) (h : eigF F n k l u = .ok L) :
    ((∃ m < 0, (Num.int 0, m) ∈ L) → determinantF F n k l u = .error .zeroDiv) ∧
    ((¬ ∃ m < 0, (Num.int 0, m) ∈ L) → ∃ d, determinantF F n k l u = .ok d) := by
  have hint : ∀ p ∈ L, ∃ z : Int, p.1 = .int z := by
    classical
    unfold eigF at h
    dsimp only at h
    split at h
    · cases h
    · rcases ite_eq_iff.1 h with ⟨-, h⟩ | ⟨-, h⟩
      · cases h
      · cases h
        simp
  have hz : (∃ p ∈ L, p.1.isZero ∧ p.2 < 0) ↔ ∃ m < 0, (Num.int 0, m) ∈ L := by
    constructor
    · rintro ⟨⟨e, m⟩, hp, h0, hm⟩
      obtain ⟨z, hz⟩ := hint _ hp
      simp only at hz h0 hm
      subst hz
      simp only [Num.isZero] at h0
      subst h0
      exact ⟨m, hm, hp⟩
    · rintro ⟨m, hm, hp⟩
      exact ⟨_, hp, rfl, hm⟩
  unfold determinantF
  rw [h, ← hz]
  rcases prodLoopF_all F L (.int 1) with ⟨h1, h2⟩ | ⟨⟨y, h1⟩, h2⟩
  · exact ⟨fun _ => by simp only [Except.bind, h1], fun h3 => absurd h2 h3⟩
  · exact ⟨fun h3 => absurd h3 h2, fun _ => ⟨y.round, by simp only [Except.bind, h1]⟩⟩

end

/-- Non-vacuity of **C40**: no graph has a single vertex and degree 3, the multiplicity is negative. -/
example : eig 1 3 0 3 = .ok [(3, 1), (0, -1), (-3, 1)] ∧ determinant 1 3 0 3 = .error .zeroDiv := by
  have h9 : √(9 : ℝ) = 3 := by
    rw [show (9 : ℝ) = 3 ^ 2 by norm_num, Real.sqrt_sq (by norm_num)]
  have t1 : Utils.toInt 3 = 3 := by exact_mod_cast toInt_intCast 3
  have t2 : Utils.toInt 0 = 0 := by exact_mod_cast toInt_intCast 0
  have t3 : Utils.toInt (-3) = -3 := by exact_mod_cast toInt_intCast (-3)
  have t4 : Utils.toInt (-1) = -1 := by exact_mod_cast toInt_intCast (-1)
  have t5 : Utils.toInt 1 = 1 := by exact_mod_cast toInt_intCast 1
  have he : eig 1 3 0 3 = .ok [(3, 1), (0, -1), (-3, 1)] := by
    norm_num [eig, conference, h9, t1, t2, t3, t4, t5]
  exact ⟨he, (C40_zero he).1 ⟨(0, -1), by simp, rfl, by norm_num⟩⟩

end TDS
