import Verif.Model.Eig
import Verif.Proof.Spectrum
import Verif.Props.Utils
import Mathlib.NumberTheory.Real.Irrational

/-! C40: `eig` returns the spectrum and `determinant` the determinant of every strongly regular
graph that is neither edgeless nor complete. -/

namespace Spec

/-- The adjacency matrix over the reals. -/
def realMat (v : Nat) (m : Matrix) : _root_.Matrix (Fin v) (Fin v) ℝ :=
  _root_.Matrix.of fun i j => (ent m i j : ℝ)

/-- The adjacency matrix over the integers. -/
def intMat (v : Nat) (m : Matrix) : _root_.Matrix (Fin v) (Fin v) ℤ :=
  _root_.Matrix.of fun i j => ent m i j

/-- A list of values with multiplicities is the list of eigenvalues of `M` with algebraic
multiplicities. -/
def IsSpectrum {v : Nat} (M : _root_.Matrix (Fin v) (Fin v) ℝ) (L : List (ℝ × Int)) : Prop :=
  (∀ p ∈ L, 0 ≤ p.2) ∧
  M.charpoly = (L.map fun p => (Polynomial.X - Polynomial.C p.1) ^ p.2.toNat).prod

end Spec

namespace TDS

open Finset

theorem toInt_intCast (n : Int) : Utils.toInt (n : ℝ) = n := by
  unfold Utils.toInt
  split <;> simp

theorem pyRound_intCast (n : Int) : Utils.pyRound (n : ℝ) = n := by
  unfold Utils.pyRound
  simp

/-- A non-adjacent pair. -/
theorem Arr.nonadj {v : Nat} {k l u : Int} {M : Nat → Nat → Int} (h : Arr v k l u M)
    (hv : 0 < v) (hk : (v : Int) ≠ k + 1) : ∃ j < v, j ≠ 0 ∧ M 0 j = 0 := by
  by_contra hno
  push Not at hno
  apply hk
  have e : ∀ t ∈ range v, M 0 t = 1 - if t = 0 then 1 else 0 := by
    intro t ht
    by_cases ht0 : t = 0
    · subst ht0; rw [h.diag 0 hv]; simp
    · rw [if_neg ht0]
      rcases h.bin 0 t with h1 | h1
      · exact absurd h1 (hno t (Finset.mem_range.1 ht) ht0)
      · rw [h1]; rfl
  have := h.deg 0 hv
  rw [Finset.sum_congr rfl e, Finset.sum_sub_distrib, Finset.sum_ite_eq' (range v) 0,
    if_pos (Finset.mem_range.2 hv)] at this
  simp at this
  omega

theorem Arr.u_le {v : Nat} {k l u : Int} {M : Nat → Nat → Int} (h : Arr v k l u M)
    (hv : 0 < v) (hk : (v : Int) ≠ k + 1) : 0 ≤ u ∧ u ≤ k := by
  obtain ⟨j, hj, h0, hM⟩ := h.nonadj hv hk
  have hi := h.inter 0 hv j hj (Ne.symm h0)
  rw [hM, if_neg (by omega)] at hi
  rw [← hi, ← h.deg 0 hv]
  constructor
  · exact Finset.sum_nonneg fun t _ => mul_nonneg (h.nonneg _ _) (h.nonneg _ _)
  · apply Finset.sum_le_sum
    intro t _
    rcases h.bin 0 t with h1 | h1 <;> rcases h.bin j t with h2 | h2 <;> rw [h1, h2] <;> simp

theorem Arr.l_lt {v : Nat} {k l u : Int} {M : Nat → Nat → Int} (h : Arr v k l u M)
    (hv : 0 < v) (hk : 0 < k) : 0 ≤ l ∧ l < k := by
  obtain ⟨j, hj, hM⟩ : ∃ j < v, M 0 j = 1 := by
    by_contra hno
    push Not at hno
    have : ∑ t ∈ range v, M 0 t = 0 := Finset.sum_eq_zero fun t ht => by
      rcases h.bin 0 t with h1 | h1
      · exact h1
      · exact absurd h1 (hno t (Finset.mem_range.1 ht))
    rw [h.deg 0 hv] at this
    omega
  have h0 : 0 ≠ j := by
    rintro rfl
    rw [h.diag 0 hv] at hM
    omega
  have hi := h.inter 0 hv j hj h0
  rw [if_pos hM] at hi
  rw [← hi, ← h.deg 0 hv]
  constructor
  · exact Finset.sum_nonneg fun t _ => mul_nonneg (h.nonneg _ _) (h.nonneg _ _)
  · apply Finset.sum_lt_sum
    · intro t _
      rcases h.bin 0 t with h1 | h1 <;> rcases h.bin j t with h2 | h2 <;> rw [h1, h2] <;> simp
    · exact ⟨j, Finset.mem_range.2 hj, by rw [hM, h.diag j hj]; decide⟩

section

variable {v : Nat} {k l u : Int} {m : Mat}

/-- The matrix equation of a strongly regular graph and its consequences. -/
theorem srg_spectrum (h : Spec.IsSRG v k l u m) (hk : 0 < k) (hkv : k + 1 < v) {D : ℝ}
    (hD0 : 0 < D) (hD : D ^ 2 = ((l - u) ^ 2 + 4 * (k - u) : ℝ)) :
    ∃ f g : ℕ, f + g + 1 = v ∧
      (k : ℝ) + f * (((l - u : ℝ) + D) / 2) + g * (((l - u : ℝ) - D) / 2) = 0 ∧
      (Spec.realMat v m).charpoly = (Polynomial.X - Polynomial.C (k : ℝ)) *
        (Polynomial.X - Polynomial.C (((l - u : ℝ) + D) / 2)) ^ f *
        (Polynomial.X - Polynomial.C (((l - u : ℝ) - D) / 2)) ^ g := by
  have hv : 0 < v := by omega
  have ha := arr_of_isSRG h
  obtain ⟨hu0, huk⟩ := ha.u_le hv (by omega)
  obtain ⟨hl0, hlk⟩ := ha.l_lt hv hk
  have hcnt := ha.count hv
  have hne : Nonempty (Fin v) := ⟨⟨0, hv⟩⟩
  set r : ℝ := ((l - u : ℝ) + D) / 2 with hr
  set s : ℝ := ((l - u : ℝ) - D) / 2 with hs
  have hrs : r * s = -((k : ℝ) - u) := by
    rw [hr, hs]; linear_combination -(1 / 4 : ℝ) * hD
  have hsum : r + s = (l : ℝ) - u := by rw [hr, hs]; ring
  have huk' : (u : ℝ) ≤ k := by exact_mod_cast huk
  have hlk' : (l : ℝ) < k := by exact_mod_cast hlk
  have hr0 : 0 ≤ r := by
    by_contra hneg
    push Not at hneg
    have : s < r := by rw [hr, hs]; linarith
    have : 0 < r * s := mul_pos_of_neg_of_neg hneg (by linarith)
    linarith
  have hs0 : s ≤ 0 := by
    by_contra hneg
    push Not at hneg
    have : s < r := by rw [hr, hs]; linarith
    have : 0 < r * s := mul_pos (by linarith) hneg
    linarith
  have key := two_charpoly (n := Fin v) (A := Spec.realMat v m) (k := (k : ℝ)) (r := r) (s := s)
    (u := (u : ℝ)) ?_ ?_ ?_ ?_ ?_ hr0 ?_
  · obtain ⟨f, g, hfg, htr, hcp⟩ := key
    exact ⟨f, g, by simpa using hfg, htr, hcp⟩
  · ext i j
    simp only [Matrix.conjTranspose_apply, Spec.realMat, Matrix.of_apply, star_trivial]
    rw [ha.sym j j.2 i i.2]
  · intro i
    simp only [Spec.realMat, Matrix.of_apply]
    rw [Fin.sum_univ_eq_sum_range (fun j => ((Spec.ent m i j : Int) : ℝ)) v]
    rw [← ha.deg i i.2]
    push_cast
    rfl
  · ext i j
    simp only [Matrix.mul_apply, Matrix.add_apply, Matrix.smul_apply, smul_eq_mul, Spec.realMat,
      Matrix.of_apply, onesMat, Matrix.one_apply]
    rw [Fin.sum_univ_eq_sum_range
      (fun t => ((Spec.ent m i t : Int) : ℝ) * ((Spec.ent m t j : Int) : ℝ)) v]
    have e : ∑ t ∈ range v, ((Spec.ent m i t : Int) : ℝ) * ((Spec.ent m t j : Int) : ℝ) =
        ((∑ t ∈ range v, Spec.ent m i t * Spec.ent m j t : Int) : ℝ) := by
      push_cast
      refine Finset.sum_congr rfl fun t ht => ?_
      rw [ha.sym t (Finset.mem_range.1 ht) j j.2]
    rw [e, hrs, hsum]
    by_cases hij : i = j
    · subst hij
      have : ∑ t ∈ range v, Spec.ent m i t * Spec.ent m i t = k := by
        rw [← ha.deg i i.2]
        refine Finset.sum_congr rfl fun t _ => ?_
        rcases ha.bin i t with h1 | h1 <;> rw [h1] <;> rfl
      rw [this, ha.diag i i.2, if_pos rfl]
      push_cast; ring
    · rw [ha.inter i i.2 j j.2 (fun hh => hij (Fin.ext hh)), if_neg hij]
      rcases ha.bin i j with h1 | h1
      · rw [h1, if_neg (by decide)]; push_cast; ring
      · rw [h1, if_pos rfl]; push_cast; ring
  · rw [Fintype.card_fin]
    have h1 : ((v : ℝ) - k - 1) * u = k * (k - l - 1) := by exact_mod_cast hcnt
    have h2 : ((k : ℝ) - s) * (k - r) = k * k - k * (r + s) + r * s := by ring
    rw [h2, hrs, hsum]
    linear_combination -h1
  · simp only [Matrix.trace, Matrix.diag, Spec.realMat, Matrix.of_apply]
    exact Finset.sum_eq_zero fun i _ => by rw [ha.diag i i.2]; simp
  · have : (0 : ℝ) < k := by exact_mod_cast hk
    linarith

/-- The discriminant is positive. -/
theorem disc_pos (h : Spec.IsSRG v k l u m) (hk : 0 < k) (hkv : k + 1 < v) :
    0 < (l - u) ^ 2 + 4 * (k - u) := by
  have hv : 0 < v := by omega
  have ha := arr_of_isSRG h
  obtain ⟨hu0, huk⟩ := ha.u_le hv (by omega)
  obtain ⟨hl0, hlk⟩ := ha.l_lt hv hk
  by_cases hu : u = k
  · have : (l - u) ≠ 0 := by omega
    have := sq_pos_of_ne_zero this
    rw [hu] at this ⊢
    omega
  · have := sq_nonneg (l - u)
    omega

/-- **C40**, integrality: outside the conference case the discriminant is a perfect square, and its
root divides `conference v k l u` with a quotient of the parity of `v - 1`. -/
theorem C40_integral (h : Spec.IsSRG v k l u m) (hk : 0 < k) (hkv : k + 1 < v)
    (hc : 2 * k + (v - 1) * (l - u) ≠ 0) :
    ∃ d q : Int, 0 < d ∧ d ^ 2 = (l - u) ^ 2 + 4 * (k - u) ∧
      2 * k + (v - 1) * (l - u) = q * d ∧ 2 ∣ v - 1 - q ∧ |q| ≤ v - 1 := by
  have hpos := disc_pos h hk hkv
  have hposR : (0 : ℝ) < ((l - u) ^ 2 + 4 * (k - u) : Int) := by exact_mod_cast hpos
  obtain ⟨f, g, hfg, htr, -⟩ := srg_spectrum h hk hkv
    (D := √(((l - u) ^ 2 + 4 * (k - u) : Int) : ℝ)) (Real.sqrt_pos.2 hposR)
    (by rw [Real.sq_sqrt hposR.le]; push_cast; ring)
  set D := √(((l - u) ^ 2 + 4 * (k - u) : Int) : ℝ) with hD
  have hv : (v : ℝ) = f + g + 1 := by rw [← hfg]; push_cast; ring
  have hconf : ((2 * k + (v - 1) * (l - u) : Int) : ℝ) = ((g : Int) - f : Int) * D := by
    push_cast
    rw [hv]
    linear_combination 2 * htr
  have hgf : ((g : Int) - f : Int) ≠ 0 := by
    intro h0
    rw [h0] at hconf
    apply hc
    have : ((2 * k + (v - 1) * (l - u) : Int) : ℝ) = 0 := by rw [hconf]; simp
    exact_mod_cast this
  have hrat : ¬ Irrational D := by
    intro hi
    apply hi
    refine ⟨(2 * k + (v - 1) * (l - u) : Int) / ((g : Int) - f : Int), ?_⟩
    have : (((g : Int) - f : Int) : ℝ) ≠ 0 := by exact_mod_cast hgf
    rw [Rat.cast_div, Rat.cast_intCast, Rat.cast_intCast, hconf]
    field_simp
  rw [hD, irrational_sqrt_intCast_iff_of_nonneg hpos.le, not_not] at hrat
  obtain ⟨d0, hd0⟩ := hrat
  obtain ⟨d, hd, hdp⟩ : ∃ d : Int, (l - u) ^ 2 + 4 * (k - u) = d * d ∧ 0 < d := by
    rcases lt_trichotomy d0 0 with h1 | h1 | h1
    · exact ⟨-d0, by rw [hd0]; ring, by omega⟩
    · rw [h1] at hd0; omega
    · exact ⟨d0, hd0, h1⟩
  have hDd : D = d := by
    rw [hD, hd]
    push_cast
    exact Real.sqrt_mul_self (by exact_mod_cast hdp.le)
  refine ⟨d, g - f, hdp, by rw [hd]; ring, ?_, ⟨f, by omega⟩, ?_⟩
  · rw [hDd] at hconf
    exact_mod_cast hconf
  · rw [abs_le]; omega

/-- **C40**, spectrum: `eig` returns the eigenvalues of the adjacency matrix with their
multiplicities. -/
theorem C40_eig (h : Spec.IsSRG v k l u m) (hk : 0 < k) (hkv : k + 1 < v) :
    ∃ L, Utils.eig v k l u = .ok L ∧ Spec.IsSpectrum (Spec.realMat v m) L := by
  have hpos := disc_pos h hk hkv
  have hposR : (0 : ℝ) < ((l - u) ^ 2 + 4 * (k - u) : Int) := by exact_mod_cast hpos
  obtain ⟨f, g, hfg, htr, hcp⟩ := srg_spectrum h hk hkv
    (D := √(((l - u) ^ 2 + 4 * (k - u) : Int) : ℝ)) (Real.sqrt_pos.2 hposR)
    (by rw [Real.sq_sqrt hposR.le]; push_cast; ring)
  have hD0 : 0 < √(((l - u) ^ 2 + 4 * (k - u) : Int) : ℝ) := Real.sqrt_pos.2 hposR
  have hv : (v : ℝ) = f + g + 1 := by rw [← hfg]; push_cast; ring
  have hconf : ((2 * k + (v - 1) * (l - u) : Int) : ℝ) =
      ((g : ℝ) - f) * √(((l - u) ^ 2 + 4 * (k - u) : Int) : ℝ) := by
    push_cast at htr ⊢
    rw [hv]
    linear_combination 2 * htr
  refine ⟨[((k : ℝ), 1), (((l - u : ℝ) + √(((l - u) ^ 2 + 4 * (k - u) : Int) : ℝ)) / 2, (f : Int)),
    (((l - u : ℝ) - √(((l - u) ^ 2 + 4 * (k - u) : Int) : ℝ)) / 2, (g : Int))], ?_, ?_, ?_⟩
  · have hmul : ∀ D : ℝ, 0 < D → ((2 * k + (v - 1) * (l - u) : Int) : ℝ) = ((g : ℝ) - f) * D →
        Utils.toInt (((((v : Int) : ℝ) - 1 : ℝ) - (Utils.conference v k l u : ℝ) / D) / 2) = f ∧
        Utils.toInt (((((v : Int) : ℝ) - 1 : ℝ) + (Utils.conference v k l u : ℝ) / D) / 2) = g := by
      intro D hD hcD
      have hq : (Utils.conference v k l u : ℝ) / D = (g : ℝ) - f := by
        unfold Utils.conference
        rw [hcD]; field_simp
      rw [hq]
      constructor
      · have : ((((v : Int) : ℝ) - 1 : ℝ) - ((g : ℝ) - f)) / 2 = ((f : Int) : ℝ) := by
          push_cast; rw [hv]; ring
        rw [this, toInt_intCast]
      · have : ((((v : Int) : ℝ) - 1 : ℝ) + ((g : ℝ) - f)) / 2 = ((g : Int) : ℝ) := by
          push_cast; rw [hv]; ring
        rw [this, toInt_intCast]
    by_cases hc : Utils.conference v k l u = 0
    · obtain ⟨h1, h2⟩ := hmul _ hD0 hconf
      unfold Utils.eig
      simp only [hc, ne_eq, not_true_eq_false, if_false, if_neg (not_lt.2 hpos.le), if_neg hD0.ne',
        List.map_cons, List.map_nil, List.zip_cons_cons, List.zip_nil_left]
      rw [hc] at h1 h2
      rw [h1, h2]
    · obtain ⟨d, q, hdp, hd, -⟩ := C40_integral h hk hkv hc
      have hDd : √(((l - u) ^ 2 + 4 * (k - u) : Int) : ℝ) = ((d : Int) : ℝ) := by
        rw [← hd]
        push_cast
        exact Real.sqrt_sq (by exact_mod_cast hdp.le)
      rw [hDd] at hconf hD0
      obtain ⟨h1, h2⟩ := hmul _ hD0 hconf
      -- the parity of `l - u ± d`
      obtain ⟨e, he⟩ : ∃ e : Int, l - u + d = 2 * e := by
        have h3 : (l - u + d) * (l - u - d) = 2 * (2 * (u - k)) := by linear_combination -hd
        rcases Int.even_or_odd' (l - u + d) with ⟨e, he | he⟩
        · exact ⟨e, he⟩
        · exfalso
          have h4 : l - u - d = 2 * (e - d) + 1 := by omega
          rw [he, h4] at h3
          have : (2 * e + 1) * (2 * (e - d) + 1) = 2 * (2 * e * (e - d) + e + (e - d)) + 1 := by ring
          omega
      have e1 : ((l - u : ℝ) + (d : ℝ)) / 2 = ((e : Int) : ℝ) := by
        have : ((l : ℝ) - u + d) = 2 * e := by exact_mod_cast he
        rw [this]; ring
      have e2 : ((l - u : ℝ) - (d : ℝ)) / 2 = ((e - d : Int) : ℝ) := by
        have : ((l : ℝ) - u + d) = 2 * e := by exact_mod_cast he
        push_cast
        linear_combination (1 / 2 : ℝ) * this
      unfold Utils.eig
      simp only [hc, ne_eq, not_false_eq_true, if_true, if_neg (not_lt.2 hpos.le), hDd,
        toInt_intCast, if_neg hD0.ne', List.map_cons, List.map_nil, List.zip_cons_cons,
        List.zip_nil_left, h1, h2, e1, e2]
  · simp
  · rw [hcp]
    simp only [List.map_cons, List.map_nil, List.prod_cons, List.prod_nil, Int.toNat_one, pow_one,
      Int.toNat_natCast, mul_one]
    ring

theorem prodLoop_ok {L : List (ℝ × Int)} (hL : ∀ p ∈ L, 0 ≤ p.2) (x : ℝ) :
    Utils.prodLoop L x = .ok (x * (L.map fun p => p.1 ^ p.2.toNat).prod) := by
  induction L generalizing x with
  | nil => simp [Utils.prodLoop]
  | cons p L ih =>
    obtain ⟨e, n⟩ := p
    have hn : 0 ≤ n := hL (e, n) (by simp)
    rw [Utils.prodLoop, if_neg (by omega), ih (fun p hp => hL p (List.mem_cons_of_mem _ hp))]
    obtain ⟨n, rfl⟩ := Int.eq_ofNat_of_zero_le hn
    simp [mul_assoc]

/-- A spectrum determines the determinant. -/
theorem det_of_spectrum {M : Matrix (Fin v) (Fin v) ℝ} {L : List (ℝ × Int)}
    (h : Spec.IsSpectrum M L) : M.det = (L.map fun p => p.1 ^ p.2.toNat).prod := by
  have h1 := congrArg Polynomial.natDegree h.2
  rw [Matrix.charpoly_natDegree_eq_dim, Fintype.card_fin] at h1
  have hdeg : ∀ L : List (ℝ × Int),
      ((L.map fun p : ℝ × Int => (Polynomial.X - Polynomial.C p.1) ^ p.2.toNat).prod).natDegree =
        (L.map fun p : ℝ × Int => p.2.toNat).sum ∧
      ((L.map fun p : ℝ × Int => (Polynomial.X - Polynomial.C p.1) ^ p.2.toNat).prod).Monic ∧
      ((L.map fun p : ℝ × Int => (Polynomial.X - Polynomial.C p.1) ^ p.2.toNat).prod).eval 0 =
        (-1) ^ (L.map fun p : ℝ × Int => p.2.toNat).sum * (L.map fun p : ℝ × Int => p.1 ^ p.2.toNat).prod := by
    intro L
    induction L with
    | nil => simp
    | cons p L ih =>
      obtain ⟨i1, i2, i3⟩ := ih
      have hm : ((Polynomial.X - Polynomial.C p.1) ^ p.2.toNat).Monic :=
        (Polynomial.monic_X_sub_C p.1).pow _
      simp only [List.map_cons, List.prod_cons, List.sum_cons]
      refine ⟨?_, hm.mul i2, ?_⟩
      · rw [hm.natDegree_mul i2, i1, (Polynomial.monic_X_sub_C _).natDegree_pow,
          Polynomial.natDegree_X_sub_C, mul_one]
      · rw [Polynomial.eval_mul, i3]
        simp only [Polynomial.eval_pow, Polynomial.eval_sub, Polynomial.eval_X, Polynomial.eval_C,
          zero_sub]
        rw [neg_pow, pow_add]
        ring
  have h2 := congrArg (Polynomial.eval 0) h.2
  rw [Matrix.eval_charpoly, (hdeg L).2.2, ← (hdeg L).1, ← h1] at h2
  simp only [map_zero, zero_sub] at h2
  rw [Matrix.det_neg, Fintype.card_fin] at h2
  have hne : ((-1 : ℝ)) ^ v ≠ 0 := pow_ne_zero _ (by norm_num)
  exact mul_left_cancel₀ hne h2

/-- **C40**, determinant: `determinant` returns the determinant of the adjacency matrix. -/
theorem C40_determinant (h : Spec.IsSRG v k l u m) (hk : 0 < k) (hkv : k + 1 < v) :
    Utils.determinant v k l u = .ok (Spec.intMat v m).det := by
  obtain ⟨L, hL, hsp⟩ := C40_eig h hk hkv
  unfold Utils.determinant
  rw [hL]
  have hdet : (Spec.realMat v m).det = (((Spec.intMat v m).det : Int) : ℝ) := by
    have := RingHom.map_det (Int.castRingHom ℝ) (Spec.intMat v m)
    rw [show ((Int.castRingHom ℝ) (Spec.intMat v m).det) = (((Spec.intMat v m).det : Int) : ℝ) from rfl]
      at this
    rw [this]
    congr 1
  simp only [Except.bind]
  rw [prodLoop_ok hsp.1, one_mul, ← det_of_spectrum hsp, hdet]
  simp only [pyRound_intCast]

end

/-- Non-vacuity of **C40**: the Petersen graph (integer spectrum). -/
example : Utils.eig 10 3 0 1 = .ok [(3, 1), (1, 5), (-2, 4)] ∧ Utils.determinant 10 3 0 1 = .ok 48 := by
  have h9 : √(9 : ℝ) = 3 := by
    rw [show (9 : ℝ) = 3 ^ 2 by norm_num, Real.sqrt_sq (by norm_num)]
  have t1 : Utils.toInt 3 = 3 := by exact_mod_cast toInt_intCast 3
  have t2 : Utils.toInt 1 = 1 := by exact_mod_cast toInt_intCast 1
  have t3 : Utils.toInt (-2) = -2 := by exact_mod_cast toInt_intCast (-2)
  have t4 : Utils.toInt 5 = 5 := by exact_mod_cast toInt_intCast 5
  have t5 : Utils.toInt 4 = 4 := by exact_mod_cast toInt_intCast 4
  have he : Utils.eig 10 3 0 1 = .ok [(3, 1), (1, 5), (-2, 4)] := by
    norm_num [Utils.eig, Utils.conference, h9, t1, t2, t3, t4, t5]
  refine ⟨he, ?_⟩
  have t6 : Utils.pyRound 48 = 48 := by exact_mod_cast pyRound_intCast 48
  unfold Utils.determinant
  rw [he]
  norm_num [Except.bind, Utils.prodLoop, t6]

/-- The pentagon (irrational spectrum). -/
example : Utils.eig 5 2 0 1 = .ok [(2, 1), ((-1 + √5) / 2, 2), ((-1 - √5) / 2, 2)] := by
  have t2 : Utils.toInt 2 = 2 := by exact_mod_cast toInt_intCast 2
  norm_num [Utils.eig, Utils.conference, t2]

/-- The hypotheses of **C40** hold for the pentagon. -/
example : Spec.IsSRG 5 2 0 1
    [[0, 1, 1, 0, 0], [1, 0, 0, 1, 0], [1, 0, 0, 0, 1], [0, 1, 0, 0, 1], [0, 0, 1, 1, 0]] := by
  rw [isSRG_iff]
  refine ⟨⟨rfl, by decide⟩, ?_, ?_, ?_, ?_, ?_⟩ <;> decide

/-- Edgeless graphs are excluded: `eig` fails on the parameters `(v, 0, 0, 0)`. -/
theorem eig_edgeless (v : Int) : Utils.eig v 0 0 0 = .error .valueErr := by
  norm_num [Utils.eig, Utils.conference]

end TDS
