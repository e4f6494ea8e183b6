import Mathlib.LinearAlgebra.Matrix.ToLin
import Mathlib.NumberTheory.SumTwoSquares
import Mathlib.NumberTheory.SumFourSquares
import Mathlib.Tactic.LinearCombination
import Mathlib.Tactic.FieldSimp
import Mathlib.Algebra.BigOperators.Field
import Verif.Props.Utils

/-! Conditions on the parameters of strongly regular graphs: those of Krein and of Belevitch. -/

namespace TDS

open Finset

/-- As many affine functions as unknowns: the unknowns can be chosen such that each function has the value of its
unknown, up to the sign. -/
theorem affine_signs : ∀ (n : Nat) (c : Fin n → ℚ) (M : Fin n → Fin n → ℚ),
    ∃ y : Fin n → ℚ, ∀ i, (c i + ∑ j, M i j * y j) ^ 2 = y i ^ 2
  | 0, _, _ => ⟨fun _ => 0, fun i => i.elim0⟩
  | n + 1, c, M => by
    obtain ⟨e, he, hne⟩ : ∃ e : ℚ, e ^ 2 = 1 ∧ e - M 0 0 ≠ 0 := by
      by_cases h : M 0 0 = 1
      · exact ⟨-1, by norm_num, by rw [h]; norm_num⟩
      · exact ⟨1, by norm_num, sub_ne_zero.2 (Ne.symm h)⟩
    obtain ⟨y, hy⟩ := affine_signs n (fun i => c i.succ + M i.succ 0 * (c 0 / (e - M 0 0)))
      (fun i j => M i.succ j.succ + M i.succ 0 * (M 0 j.succ / (e - M 0 0)))
    set z : ℚ := (c 0 + ∑ j, M 0 j.succ * y j) / (e - M 0 0) with hz
    refine ⟨Fin.cons z y, fun i => ?_⟩
    rw [Fin.sum_univ_succ]
    simp only [Fin.cons_zero, Fin.cons_succ]
    refine Fin.cases ?_ (fun i => ?_) i
    · have h1 : (e - M 0 0) * z = c 0 + ∑ j, M 0 j.succ * y j := by
        rw [hz]; field_simp
      rw [Fin.cons_zero]
      have h2 : c 0 + (M 0 0 * z + ∑ j, M 0 j.succ * y j) = e * z := by linear_combination -h1
      rw [h2, mul_pow, he, one_mul]
    · rw [Fin.cons_succ, ← hy i]
      congr 1
      have : z = c 0 / (e - M 0 0) + ∑ j, M 0 j.succ / (e - M 0 0) * y j := by
        rw [hz, add_div, Finset.sum_div]
        congr 1
        exact Finset.sum_congr rfl fun j _ => by ring
      rw [this, mul_add, Finset.mul_sum]
      simp only [add_mul, Finset.sum_add_distrib]
      have h3 : ∑ j, M i.succ 0 * (M 0 j.succ / (e - M 0 0) * y j) =
          ∑ j, M i.succ 0 * (M 0 j.succ / (e - M 0 0)) * y j :=
        Finset.sum_congr rfl fun j _ => by ring
      rw [h3]; ring

theorem affine_signs' {ι : Type*} [Fintype ι] [DecidableEq ι] (c : ι → ℚ) (M : ι → ι → ℚ) :
    ∃ y : ι → ℚ, ∀ i, (c i + ∑ j, M i j * y j) ^ 2 = y i ^ 2 := by
  let e := Fintype.equivFin ι
  obtain ⟨y, hy⟩ := affine_signs _ (fun i => c (e.symm i)) (fun i j => M (e.symm i) (e.symm j))
  refine ⟨fun i => y (e i), fun i => ?_⟩
  rw [← hy (e i)]
  simp only [Equiv.symm_apply_apply]
  congr 2
  rw [← Equiv.sum_comp e]
  simp

/-- Euler's identity. -/
theorem four_squares (a b c d : ℚ) : ∃ H : Fin 4 → Fin 4 → ℚ, ∀ y : Fin 4 → ℚ,
    ∑ i, (∑ j, H i j * y j) ^ 2 = (a ^ 2 + b ^ 2 + c ^ 2 + d ^ 2) * ∑ j, y j ^ 2 := by
  refine ⟨![![a, b, c, d], ![-b, a, -d, c], ![-c, d, a, -b], ![-d, -c, b, a]], fun y => ?_⟩
  simp [Fin.sum_univ_four]
  ring

/-- A rational matrix of order 2 modulo 4 that multiplies every sum of squares by `v` can only exist if `v` is a sum of
two squares. -/
theorem two_squares {v t : Nat} (hv : 0 < v) {ι : Type*} [Fintype ι] [DecidableEq ι]
    (hc : Fintype.card ι = 4 * t + 2) (C : ι → ι → ℚ)
    (hC : ∀ x : ι → ℚ, ∑ i, (∑ j, C i j * x j) ^ 2 = v * ∑ j, x j ^ 2) : ∃ p q : ℚ, (v : ℚ) = p ^ 2 + q ^ 2 := by
  have hv0 : (v : ℚ) ≠ 0 := by positivity
  let e : (Fin t × Fin 4) ⊕ Fin 2 ≃ ι := Fintype.equivOfCardEq (by simp [hc]; ring)
  obtain ⟨a, b, c, d, habcd⟩ := Nat.sum_four_squares v
  obtain ⟨H, hH⟩ := four_squares a b c d
  have hsum : ((a : ℚ) ^ 2 + b ^ 2 + c ^ 2 + d ^ 2) = v := by exact_mod_cast habcd
  rw [hsum] at hH
  -- the vector with the last two entries 1 and 0
  let X : (Fin t × Fin 4 → ℚ) → ((Fin t × Fin 4) ⊕ Fin 2) → ℚ := fun y =>
    Sum.elim (fun p => (∑ j, H p.2 j * y (p.1, j)) / v) (fun i => if i = 0 then 1 else 0)
  have hX : ∀ y, (v : ℚ) * ∑ p, X y p ^ 2 = (∑ p, y p ^ 2) + v := by
    intro y
    rw [Fintype.sum_sum_type, mul_add]
    congr 1
    · rw [Fintype.sum_prod_type, Fintype.sum_prod_type, Finset.mul_sum]
      refine Finset.sum_congr rfl fun s _ => ?_
      have := hH (fun j => y (s, j))
      simp only [X, Sum.elim_inl, div_pow]
      rw [← Finset.sum_div, this]
      field_simp
    · simp [X]
  obtain ⟨y, hy⟩ := affine_signs' (ι := Fin t × Fin 4) (fun i => C (e (.inl i)) (e (.inr 0)))
    (fun i p => (∑ q : Fin 4, C (e (.inl i)) (e (.inl (p.1, q))) * H q p.2) / v)
  have hL : ∀ i, ∑ j, C i j * X y (e.symm j) = C i (e (.inr 0)) +
      ∑ p : Fin t × Fin 4, (∑ q : Fin 4, C i (e (.inl (p.1, q))) * H q p.2) / v * y p := by
    intro i
    rw [← Equiv.sum_comp e]
    simp only [Equiv.symm_apply_apply]
    rw [Fintype.sum_sum_type, add_comm]
    congr 1
    · simp [X]
    · rw [Fintype.sum_prod_type, Fintype.sum_prod_type]
      refine Finset.sum_congr rfl fun s _ => ?_
      simp only [X, Sum.elim_inl, Finset.sum_div, Finset.mul_sum, Finset.sum_mul]
      rw [Finset.sum_comm]
      exact Finset.sum_congr rfl fun p _ => Finset.sum_congr rfl fun q _ => by ring
  have h1 := hC (fun j => X y (e.symm j))
  rw [← Equiv.sum_comp e (fun j => X y (e.symm j) ^ 2)] at h1
  simp only [Equiv.symm_apply_apply] at h1
  rw [hX y, ← Equiv.sum_comp e, Fintype.sum_sum_type] at h1
  simp only [hL] at h1
  rw [Finset.sum_congr rfl (fun i _ => hy i), Fin.sum_univ_two] at h1
  exact ⟨_, _, (add_left_cancel h1).symm⟩

theorem nat_two_squares {v : Nat} {p q : ℚ} (h : (v : ℚ) = p ^ 2 + q ^ 2) : ∃ x y : Nat, v = x ^ 2 + y ^ 2 := by
  rcases Nat.eq_zero_or_pos v with rfl | hv
  · exact ⟨0, 0, rfl⟩
  have hd : 0 < p.den * q.den := Nat.mul_pos p.pos q.pos
  have h1 : v * (p.den * q.den) ^ 2 = (p.num.natAbs * q.den) ^ 2 + (q.num.natAbs * p.den) ^ 2 := by
    have hp : (p.den : ℚ) ≠ 0 := by exact_mod_cast p.den_nz
    have hq : (q.den : ℚ) ≠ 0 := by exact_mod_cast q.den_nz
    have e1 : p * p.den = p.num := Rat.mul_den_eq_num p
    have e2 : q * q.den = q.num := Rat.mul_den_eq_num q
    have : (v : ℚ) * (p.den * q.den) ^ 2 = (p.num * q.den) ^ 2 + (q.num * p.den) ^ 2 := by
      rw [h, ← e1, ← e2]; ring
    have h2 : (v : ℤ) * (p.den * q.den) ^ 2 = (p.num * q.den) ^ 2 + (q.num * p.den) ^ 2 := by exact_mod_cast this
    zify
    rw [mul_pow |p.num|, mul_pow |q.num|, sq_abs, sq_abs]
    linear_combination h2
  rw [Nat.eq_sq_add_sq_iff]
  intro r hr h4
  have hr' := Nat.prime_of_mem_primeFactors hr
  have hev := (Nat.eq_sq_add_sq_iff (n := v * (p.den * q.den) ^ 2)).1 ⟨_, _, h1⟩ (q := r)
    (by
      rw [Nat.mem_primeFactors]
      exact ⟨hr', (Nat.dvd_of_mem_primeFactors hr).mul_right _, by positivity⟩) h4
  have : Fact r.Prime := ⟨hr'⟩
  rw [padicValNat.mul (by omega) (by positivity), padicValNat.pow] at hev
  have h5 : Even (2 * padicValNat r (p.den * q.den)) := even_two_mul _
  exact (Nat.even_add.1 hev).2 h5

/-! ### strongly regular graphs -/

section

variable {v : Nat} {k l u : Int} {m : Mat}

/-- Products of rows. -/
theorem rows_mul (h : Spec.IsSRG v k l u m) (i j : Fin v) : ∑ t : Fin v, Spec.ent m i t * Spec.ent m j t =
    u + (l - u) * Spec.ent m i j + if i = j then k - u else 0 := by
  obtain ⟨-, hb, hd, -, hdeg, hm⟩ := isSRG_iff.1 h
  by_cases hij : i = j
  · subst hij
    rw [if_pos rfl, hd i, ← hdeg i]
    have : ∑ t : Fin v, Spec.ent m i t * Spec.ent m i t = ∑ t : Fin v, Spec.ent m i t :=
      Finset.sum_congr rfl fun t _ => by rcases hb i t with e | e <;> rw [e] <;> rfl
    rw [this]; ring
  · rw [if_neg hij, hm i j hij]
    rcases hb i j with e | e
    · rw [e, if_neg (by decide)]; ring
    · rw [e, if_pos rfl]; ring

/-- A combination of the identity, the matrix and the all-ones matrix. -/
def combo (v : Nat) (m : Mat) (a b c : ℚ) (i j : Fin v) : ℚ := (if i = j then a else 0) + b * Spec.ent m i j + c

theorem combo_mul (h : Spec.IsSRG v k l u m) (a b c : ℚ) (i j : Fin v) :
    ∑ t, combo v m a b c i t * combo v m a b c j t =
      combo v m (a ^ 2 + b ^ 2 * (k - u)) (2 * a * b + b ^ 2 * (l - u))
        (2 * a * c + b ^ 2 * u + 2 * b * c * k + v * c ^ 2) i j := by
  obtain ⟨-, hb, hd, hs, hdeg, hm⟩ := isSRG_iff.1 h
  have h1 := rows_mul h i j
  have h1 : ∑ t : Fin v, (Spec.ent m i t : ℚ) * Spec.ent m j t =
      u + (l - u) * Spec.ent m i j + if i = j then (k : ℚ) - u else 0 := by
    have := congrArg (Int.cast (R := ℚ)) h1
    push_cast at this
    exact this
  have h2 : ∀ i : Fin v, ∑ t : Fin v, (Spec.ent m i t : ℚ) = k := fun i => by
    have := congrArg (Int.cast (R := ℚ)) (hdeg i)
    push_cast at this
    exact this
  have e : ∀ t : Fin v, combo v m a b c i t * combo v m a b c j t =
      (if i = t then a * combo v m a b c j t else 0) + (if j = t then a * (b * Spec.ent m i t + c) else 0) +
        b ^ 2 * (Spec.ent m i t * Spec.ent m j t) + b * c * Spec.ent m i t + b * c * Spec.ent m j t + c ^ 2 := by
    intro t
    unfold combo
    split <;> split <;> ring
  rw [Finset.sum_congr rfl fun t _ => e t]
  simp only [Finset.sum_add_distrib, ← Finset.mul_sum, h1, h2, Finset.sum_ite_eq, Finset.mem_univ, if_true,
    Finset.sum_const, Finset.card_univ, Fintype.card_fin, nsmul_eq_mul]
  unfold combo
  rw [hs j i]
  by_cases hij : i = j
  · simp only [if_pos hij, if_pos hij.symm]; ring
  · simp only [if_neg hij, if_neg (Ne.symm hij)]; ring

/-- The sum of the cubes of the products of the rows of a matrix is not negative. -/
theorem cubes_nonneg {ι : Type*} [Fintype ι] (N : ι → ι → ℚ) : 0 ≤ ∑ i, ∑ j, (∑ t, N i t * N j t) ^ 3 := by
  have e1 : ∀ i j, (∑ t, N i t * N j t) ^ 3 = ∑ p : ι × ι × ι,
      (N i p.1 * N i p.2.1 * N i p.2.2) * (N j p.1 * N j p.2.1 * N j p.2.2) := by
    intro i j
    rw [pow_succ, pow_two, Finset.sum_mul_sum, Finset.sum_mul, Fintype.sum_prod_type]
    refine Finset.sum_congr rfl fun a _ => ?_
    rw [Finset.sum_mul_sum, Fintype.sum_prod_type]
    exact Finset.sum_congr rfl fun b _ => Finset.sum_congr rfl fun c _ => by ring
  have e2 : ∑ i, ∑ j, (∑ t, N i t * N j t) ^ 3 =
      ∑ p : ι × ι × ι, (∑ i, N i p.1 * N i p.2.1 * N i p.2.2) ^ 2 := by
    simp only [e1]
    rw [Finset.sum_congr rfl fun i _ => Finset.sum_comm, Finset.sum_comm]
    exact Finset.sum_congr rfl fun p _ => by rw [pow_two, Finset.sum_mul_sum]
  rw [e2]
  exact Finset.sum_nonneg fun p _ => sq_nonneg _

/-- The condition of Krein: `r` is an eigenvalue other than `k`. -/
theorem krein (h : Spec.IsSRG v k l u m) (hv : 0 < v) {r : ℚ} (hr : r ^ 2 = (l - u) * r + (k - u)) :
    0 ≤ (2 * r - (l - u)) * ((v * r + k - r) ^ 3 + k * (k - r - v) ^ 3 + (v - k - 1) * (k - r) ^ 3) := by
  obtain ⟨-, hb, hd, hs, hdeg, hm⟩ := isSRG_iff.1 h
  have hcnt : ((v : ℚ) - k - 1) * u = k * (k - l - 1) := by
    exact_mod_cast (arr_of_isSRG h).count hv
  set N : Fin v → Fin v → ℚ := combo v m (v * r) (-v) (k - r) with hN
  have hsq : ∀ i j, ∑ t, N i t * N j t = v * (2 * r - (l - u)) * N i j := by
    intro i j
    rw [hN, combo_mul h]
    unfold combo
    by_cases hij : i = j
    · simp only [if_pos hij]
      linear_combination ((v : ℚ) - v ^ 2) * hr + v * hcnt
    · simp only [if_neg hij]
      linear_combination (v : ℚ) * hr + v * hcnt
  have hcube := cubes_nonneg N
  simp only [hsq, mul_pow] at hcube
  simp only [← Finset.mul_sum] at hcube
  have hrow : ∀ i, ∑ j, N i j ^ 3 =
      (v * r + k - r) ^ 3 + k * (k - r - v) ^ 3 + (v - k - 1) * (k - r) ^ 3 := by
    intro i
    have e : ∀ j : Fin v, N i j ^ 3 = (if i = j then (v * r + k - r) ^ 3 - (k - r) ^ 3 else 0) +
        ((k - r - v) ^ 3 - (k - r) ^ 3) * Spec.ent m i j + (k - r) ^ 3 := by
      intro j
      rw [hN]
      unfold combo
      by_cases hij : i = j
      · subst hij
        rw [hd i, if_pos rfl, if_pos rfl]; push_cast; ring
      · rw [if_neg hij, if_neg hij]
        rcases hb i j with e | e <;> rw [e] <;> push_cast <;> ring
    rw [Finset.sum_congr rfl fun j _ => e j]
    have h2 : ∑ t : Fin v, (Spec.ent m i t : ℚ) = k := by
      have := congrArg (Int.cast (R := ℚ)) (hdeg i)
      push_cast at this
      exact this
    simp only [Finset.sum_add_distrib, ← Finset.mul_sum, h2, Finset.sum_ite_eq, Finset.mem_univ, if_true,
      Finset.sum_const, Finset.card_univ, Fintype.card_fin, nsmul_eq_mul]
    ring
  simp only [hrow, Finset.sum_const, Finset.card_univ, Fintype.card_fin, nsmul_eq_mul] at hcube
  set S := (v * r + k - r) ^ 3 + k * (k - r - v) ^ 3 + (v - k - 1) * (k - r) ^ 3
  set x := 2 * r - (l - u)
  rcases eq_or_ne x 0 with hx | hx
  · rw [hx, zero_mul]
  · have hv' : (0 : ℚ) < v := by exact_mod_cast hv
    have hpos : 0 < (v : ℚ) ^ 4 * x ^ 2 := by positivity
    have : 0 ≤ (v : ℚ) ^ 4 * x ^ 2 * (x * S) := by
      refine le_trans hcube (le_of_eq ?_)
      ring
    exact nonneg_of_mul_nonneg_right this hpos

/-- The condition of Belevitch: conference graphs. -/
theorem belevitch {t : Nat} (h : Spec.IsSRG (4 * t + 1) (2 * t) (t - 1) t m) :
    ∃ x y : Nat, 4 * t + 1 = x ^ 2 + y ^ 2 := by
  obtain ⟨-, hb, hd, hs, hdeg, hm⟩ := isSRG_iff.1 h
  have h2 : ∀ i : Fin (4 * t + 1), ∑ j : Fin (4 * t + 1), combo _ m (-1) (-2) 1 i j = 0 := by
    intro i
    have := congrArg (Int.cast (R := ℚ)) (hdeg i)
    push_cast at this
    unfold combo
    simp only [Finset.sum_add_distrib, ← Finset.mul_sum, this, Finset.sum_ite_eq, Finset.mem_univ, if_true,
      Finset.sum_const, Finset.card_univ, Fintype.card_fin, nsmul_eq_mul]
    push_cast
    ring
  set S : Fin (4 * t + 1) → Fin (4 * t + 1) → ℚ := combo _ m (-1) (-2) 1 with hS
  have hsym : ∀ i j, S i j = S j i := by
    intro i j
    rw [hS]
    unfold combo
    rw [hs i j]
    simp only [eq_comm]
  have hsq : ∀ i j, ∑ t, S i t * S j t = (if i = j then (4 * t + 1 : ℚ) else 0) - 1 := by
    intro i j
    rw [hS, combo_mul h]
    unfold combo
    by_cases hij : i = j
    · subst hij
      rw [if_pos rfl, if_pos rfl, hd i]; push_cast; ring
    · rw [if_neg hij, if_neg hij]; push_cast; ring
  -- the conference matrix: a row and a column of ones in front
  refine nat_two_squares (two_squares (t := t) (by omega) (ι := Option (Fin (4 * t + 1))) (by simp)
    (fun i j => match i, j with
      | none, none => 0
      | some _, none => 1
      | none, some _ => 1
      | some i, some j => S i j) ?_).choose_spec.choose_spec
  intro x
  rw [Fintype.sum_option, Fintype.sum_option (fun j => x j ^ 2)]
  simp only [Fintype.sum_option, zero_mul, one_mul, zero_add]
  have e1 : ∑ i, ∑ j, S i j * x (some j) = 0 := by
    rw [Finset.sum_comm]
    refine Finset.sum_eq_zero fun j _ => ?_
    rw [← Finset.sum_mul, Finset.sum_congr rfl fun i _ => hsym i j, h2 j, zero_mul]
  have e2 : ∑ i, (∑ j, S i j * x (some j)) ^ 2 =
      (4 * t + 1) * ∑ j, x (some j) ^ 2 - (∑ j, x (some j)) ^ 2 := by
    have h3 : ∀ i, (∑ j, S i j * x (some j)) ^ 2 =
        ∑ j, ∑ j', x (some j) * x (some j') * (S j i * S j' i) := by
      intro i
      rw [pow_two, Finset.sum_mul_sum]
      exact Finset.sum_congr rfl fun j _ => Finset.sum_congr rfl fun j' _ => by
        rw [hsym i j, hsym i j']; ring
    rw [Finset.sum_congr rfl fun i _ => h3 i, Finset.sum_comm,
      Finset.sum_congr rfl fun j _ => Finset.sum_comm]
    simp only [← Finset.mul_sum, hsq, mul_sub, mul_ite, mul_zero, Finset.sum_sub_distrib, Finset.sum_ite_eq,
      Finset.mem_univ, if_true, mul_one]
    rw [pow_two (∑ j, x (some j)), Finset.sum_mul_sum, Finset.mul_sum]
    congr 1
    · exact Finset.sum_congr rfl fun j _ => by ring
    · exact Finset.sum_congr rfl fun j _ => Finset.mul_sum _ _ _
  have e3 : ∑ i : Fin (4 * t + 1), (x none + ∑ j, S i j * x (some j)) ^ 2 =
      (4 * t + 1) * x none ^ 2 + 2 * x none * ∑ i, ∑ j, S i j * x (some j) +
        ∑ i, (∑ j, S i j * x (some j)) ^ 2 := by
    simp only [add_sq, Finset.sum_add_distrib, ← Finset.mul_sum, Finset.sum_const, Finset.card_univ,
      Fintype.card_fin, nsmul_eq_mul]
    push_cast
    ring
  rw [e3, e1, e2]
  push_cast
  ring

end

end TDS
