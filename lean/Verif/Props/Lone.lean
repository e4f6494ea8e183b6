import Verif.Proof.Lone
import Verif.Props.Near
import Verif.Props.Cliques
import Verif.Props.Eig

/-!
C84: results with a single vertex of too small degree.

The wrong results known for (22, 9, 4, 3) have one vertex with too few neighbours.  This cannot happen for the
parameters of a strongly regular graph: both kinds of matrices have two eigenvalues outside of a small invariant
space, and the multiplicities cannot be integers for both.
-/

namespace TDS

open Finset

section
variable {v : Nat} {k l u : Int} (h : Good v k l u) {out : List Mat} (ho : IsOutput v k l u out)
  {m : Mat} (hm : m ∈ out)
include h ho hm

theorem walk_eq {i j : Nat} (hi : i < v) : ∑ t ∈ range v, Spec.ent m i t * Spec.ent m j t =
    u + (l - u) * Spec.ent m i j - Spec.lack l u m i j := by
  rw [lack_eq h ho hm hi]; ring

theorem walk_self {i : Nat} (hi : i < v) : ∑ t ∈ range v, Spec.ent m i t * Spec.ent m i t = Spec.deg m i := by
  rw [deg_eq_sum (output_adj h ho hm) hi]
  refine Finset.sum_congr rfl (fun t _ => ?_)
  rcases out_bin h ho hm i t with e | e <;> rw [e] <;> norm_num

/-- The trace of the projection on one of the eigenspaces. -/
theorem lone_mult {x : Nat} (hx : x < v) (hd : ∀ j < v, j ≠ x → Spec.deg m j = k) (hlt : Spec.deg m x < k)
    (hu : 0 < u) {D : ℝ} (hD0 : 0 < D) (hD : D ^ 2 = ((l - u) ^ 2 + 4 * (k - u) : ℝ)) :
    ∃ f : ℕ, (f : ℝ) * D = -((k : ℝ) - 1) - ((l - u : ℝ) - D) / 2 * ((v : ℝ) - 3) := by
  have ha := output_adj h ho hm
  have hsym := fun {i j : Nat} => out_sym h ho hm (i := i) (j := j)
  have hdiag := fun {i : Nat} => out_diag h ho hm (i := i)
  have hdeg := fun {i : Nat} (hi : i < v) => deg_eq_sum ha hi
  obtain ⟨he, hlx, hl0⟩ := C78_single h ho hm hx hd hlt
  have hux := (C56_degrees h ho hm hx).1
  have hkv := h.kv
  set a : Int := Spec.deg m x with hadef
  -- walks of length two
  have w1 : ∀ i < v, i ≠ x → ∑ t ∈ range v, Spec.ent m i t * Spec.ent m x t = u - Spec.ent m x i := by
    intro i hi hix
    rw [walk_eq h ho hm hi, lack_comm h ho hm hi hx, hlx i hi hix, hsym hi hx]
    ring
  have w2 : ∀ i < v, ∀ j < v, i ≠ x → j ≠ x → i ≠ j →
      ∑ t ∈ range v, Spec.ent m i t * Spec.ent m j t = u + (l - u) * Spec.ent m i j := by
    intro i hi j hj hix hjx hij
    rw [walk_eq h ho hm hi, hl0 i hi j hj hix hjx hij, sub_zero]
  let ee : Fin v → ℝ := fun i => if (i : Nat) = x then 1 else 0
  let ch : Fin v → ℝ := fun i => (Spec.ent m x i : Int)
  let om : Fin v → ℝ := fun i => 1 - ee i - ch i
  have sumR : ∀ f : Nat → Int, ∑ i : Fin v, ((f i : Int) : ℝ) = ((∑ i ∈ range v, f i : Int) : ℝ) := by
    intro f
    rw [Fin.sum_univ_eq_sum_range (fun i => ((f i : Int) : ℝ)) v]
    push_cast; rfl
  have sumE : ∀ f : Fin v → ℝ, ∑ i : Fin v, f i * ee i = f ⟨x, hx⟩ := by
    intro f
    rw [Finset.sum_eq_single (⟨x, hx⟩ : Fin v)]
    · simp [ee]
    · intro b _ hb
      have : (b : Nat) ≠ x := fun hh => hb (Fin.ext hh)
      simp [ee, this]
    · intro hh; exact absurd (Finset.mem_univ _) hh
  have che : ch ⟨x, hx⟩ = 0 := by
    change ((Spec.ent m x x : Int) : ℝ) = 0
    rw [hdiag hx]; simp
  have eex : ee ⟨x, hx⟩ = 1 := by simp [ee]
  have schch : ∑ i : Fin v, ch i * ch i = (a : ℝ) := by
    have := sumR (fun i => Spec.ent m x i * Spec.ent m x i)
    rw [walk_self h ho hm hx] at this
    rw [← this]
    exact Finset.sum_congr rfl fun i _ => by push_cast; rfl
  have sch : ∑ i : Fin v, ch i = (a : ℝ) := by
    rw [sumR (fun i => Spec.ent m x i), ← hdeg hx]
  have see : ∑ i : Fin v, ee i = 1 := by
    have := sumE (fun _ => 1)
    simpa using this
  have sone : ∑ _i : Fin v, (1 : ℝ) = v := by simp
  have Aee : Matrix.mulVec (Spec.realMat v m) ee = ch := by
    ext i
    rw [Matrix.mulVec, dotProduct, sumE]
    change ((Spec.ent m i x : Int) : ℝ) = ((Spec.ent m x i : Int) : ℝ)
    rw [hsym i.2 hx]
  have Ach : ∀ i : Fin v, (Matrix.mulVec (Spec.realMat v m) ch) i =
      ((∑ t ∈ range v, Spec.ent m i t * Spec.ent m x t : Int) : ℝ) := by
    intro i
    rw [← sumR (fun t => Spec.ent m i t * Spec.ent m x t), Matrix.mulVec, dotProduct]
    exact Finset.sum_congr rfl fun t _ => by push_cast; rfl
  have Aone : ∀ i : Fin v, ∑ t : Fin v, Spec.realMat v m i t = ((Spec.deg m i : Int) : ℝ) := by
    intro i
    rw [hdeg i.2, ← sumR (fun t => Spec.ent m i t)]
    rfl
  have hom : ∀ i : Fin v, om i = 1 - ee i - ch i := fun _ => rfl
  have hee0 : ∀ i : Fin v, (i : Nat) ≠ x → ee i = 0 := fun i hi => by simp [ee, hi]
  set r : ℝ := ((l - u : ℝ) + D) / 2 with hr
  set s : ℝ := ((l - u : ℝ) - D) / 2 with hs
  have hrs : r * s = -((k : ℝ) - u) := by
    rw [hr, hs]; linear_combination -(1 / 4 : ℝ) * hD
  have hsum : r + s = (l : ℝ) - u := by rw [hr, hs]; ring
  have hed : ((k : ℝ) - a) = l + 1 - u := by exact_mod_cast he
  have ha0 : (a : ℝ) ≠ 0 := by
    have : 0 < a := by omega
    exact_mod_cast this.ne'
  have key := lone_trace (n := Fin v) (A := Spec.realMat v m) (e := ee) (χ := ch) (ω := om) (a := (a : ℝ))
    (c := (v : ℝ) - 1 - a) (k := (k : ℝ)) (u := (u : ℝ)) (d := (l + 1 - u : ℝ)) (r := r) (s := s)
    ?_ ha0 ?_ ?_ schch ?_ ?_ ?_ ?_ ?_ Aee ?_ ?_ ?_ ?_ ?_
  · obtain ⟨f, hf⟩ := key
    refine ⟨f, ?_⟩
    rw [Fintype.card_fin] at hf
    rw [← hf, hr, hs]
    ring
  · ext i j
    simp only [Matrix.transpose_apply, Spec.realMat, Matrix.of_apply]
    rw [hsym j.2 i.2]
  · have : 0 < (v : Int) - 1 - a := by omega
    have : (0 : ℝ) < (v : ℝ) - 1 - a := by exact_mod_cast this
    exact this.ne'
  · rw [dotProduct, sumE, eex]
  · have : ∀ i : Fin v, om i * om i = 1 + ee i * ee i + ch i * ch i - 2 * ee i - 2 * ch i + 2 * (ch i * ee i) := by
      intro i; rw [hom]; ring
    rw [dotProduct, Finset.sum_congr rfl (fun i _ => this i)]
    simp only [Finset.sum_add_distrib, Finset.sum_sub_distrib, ← Finset.mul_sum, sumE, sone, sch, schch, eex, che]
    ring
  · rw [dotProduct_comm, dotProduct, sumE, che]
  · rw [dotProduct_comm, dotProduct, sumE, hom, eex, che]; ring
  · have : ∀ i : Fin v, ch i * om i = ch i - ch i * ee i - ch i * ch i := by
      intro i; rw [hom]; ring
    rw [dotProduct, Finset.sum_congr rfl (fun i _ => this i)]
    simp only [Finset.sum_sub_distrib, sumE, sch, schch, che]
    ring
  · ext i
    simp only [Pi.add_apply, hom]
    ring
  · ext i
    rw [Ach]
    simp only [Pi.add_apply, Pi.smul_apply, smul_eq_mul, hom]
    by_cases hix : (i : Nat) = x
    · have hi' : i = ⟨x, hx⟩ := Fin.ext hix
      rw [hi', eex, che, walk_self h ho hm hx]
      ring
    · rw [w1 i i.2 hix, hee0 i hix]
      change ((u - Spec.ent m x i : Int) : ℝ) = _ + _ * ((Spec.ent m x i : Int) : ℝ) +
        _ * (1 - 0 - ((Spec.ent m x i : Int) : ℝ))
      push_cast; ring
  · ext i
    have e1 : (Matrix.mulVec (Spec.realMat v m) om) i = ((Spec.deg m i : Int) : ℝ) - ch i -
        ((∑ t ∈ range v, Spec.ent m i t * Spec.ent m x t : Int) : ℝ) := by
      rw [← Ach, ← congrFun Aee i, ← Aone]
      simp only [Matrix.mulVec, dotProduct, ← Finset.sum_sub_distrib]
      exact Finset.sum_congr rfl fun t _ => by rw [hom]; ring
    rw [e1]
    simp only [Pi.add_apply, Pi.smul_apply, smul_eq_mul, hom]
    by_cases hix : (i : Nat) = x
    · have hi' : i = ⟨x, hx⟩ := Fin.ext hix
      rw [hi', eex, che, walk_self h ho hm hx]
      ring
    · rw [w1 i i.2 hix, hee0 i hix, hd i i.2 hix]
      change _ - ((Spec.ent m x i : Int) : ℝ) - _ = _ * (((Spec.ent m x i : Int) : ℝ) +
        (1 - 0 - ((Spec.ent m x i : Int) : ℝ)))
      push_cast; ring
  · ext i j
    have e1 : (Spec.realMat v m * Spec.realMat v m) i j =
        ((∑ t ∈ range v, Spec.ent m i t * Spec.ent m j t : Int) : ℝ) := by
      rw [Matrix.mul_apply, ← sumR (fun t => Spec.ent m i t * Spec.ent m j t)]
      refine Finset.sum_congr rfl fun t _ => ?_
      simp only [Spec.realMat, Matrix.of_apply]
      rw [hsym t.2 j.2]
      push_cast; rfl
    rw [e1]
    simp only [Matrix.add_apply, Matrix.sub_apply, Matrix.smul_apply, smul_eq_mul, onesMat, Matrix.of_apply,
      Matrix.vecMulVec_apply, Spec.realMat]
    rw [hrs, hsum]
    by_cases hij : i = j
    · subst hij
      rw [walk_self h ho hm i.2, Matrix.one_apply_eq, hdiag i.2]
      by_cases hix : (i : Nat) = x
      · have hi' : i = ⟨x, hx⟩ := Fin.ext hix
        rw [hi', eex, che]
        push_cast
        linear_combination -hed
      · rw [hee0 i hix, hd i i.2 hix]
        push_cast; ring
    · have hij' : (i : Nat) ≠ j := fun hh => hij (Fin.ext hh)
      rw [Matrix.one_apply_ne hij]
      by_cases hix : (i : Nat) = x
      · have hjx : (j : Nat) ≠ x := fun hh => hij' (hix.trans hh.symm)
        have hi' : i = ⟨x, hx⟩ := Fin.ext hix
        rw [hi', eex, che, hee0 j hjx]
        have : ∑ t ∈ range v, Spec.ent m x t * Spec.ent m j t = u - Spec.ent m x j := by
          rw [← w1 j j.2 hjx]
          exact Finset.sum_congr rfl fun t _ => mul_comm _ _
        change ((∑ t ∈ range v, Spec.ent m x t * Spec.ent m j t : Int) : ℝ) = _ + _ * ((Spec.ent m x j : Int) : ℝ) +
          _ - _ * (_ + 1 * ((Spec.ent m x j : Int) : ℝ) + _)
        rw [this]
        push_cast; ring
      · by_cases hjx : (j : Nat) = x
        · have hj' : j = ⟨x, hx⟩ := Fin.ext hjx
          rw [hj', eex, che, hee0 i hix]
          change ((∑ t ∈ range v, Spec.ent m i t * Spec.ent m x t : Int) : ℝ) = _ + _ * ((Spec.ent m i x : Int) : ℝ) +
            _ - _ * (_ + _ + ((Spec.ent m x i : Int) : ℝ) * 1)
          rw [w1 i i.2 hix, hsym i.2 hx]
          push_cast; ring
        · rw [hee0 i hix, hee0 j hjx, w2 i i.2 j j.2 hix hjx hij']
          push_cast; ring
  · rw [hr, hs]
    intro hh
    linarith
  · simp only [Matrix.trace, Matrix.diag, Spec.realMat, Matrix.of_apply]
    exact Finset.sum_eq_zero fun i _ => by rw [hdiag i.2]; simp

/-- A result with a vertex of too small degree has `u > 0`, and `k + 1 < v`. -/
theorem lone_u {x : Nat} (hx : x < v) (hlt : Spec.deg m x < k) : 0 < u ∧ k + 1 < v := by
  have hu0 : u ≠ 0 := by
    rintro rfl
    have ha := output_adj h ho hm
    have hs := (C61_exact h ho m hm).deg (m.getD x []) (by
      rw [List.getD_eq_getElem _ _ (by rw [ha.square]; exact hx)]
      exact List.getElem_mem _)
    unfold Spec.deg at hlt
    omega
  have := h.u_bound
  have := h.kv
  refine ⟨by omega, ?_⟩
  by_contra hc
  exact hu0 (h.degenerate (by omega))

/-- **C84.**  If just one vertex of a result has too few neighbours, then the discriminant of the parameters is a
square, and its root divides `2 (k - 1) + (v - 3) (l - u)` with a quotient of the parity of `v - 3`. -/
theorem C84_condition {x : Nat} (hx : x < v) (hd : ∀ j < v, j ≠ x → Spec.deg m j = k) (hlt : Spec.deg m x < k) :
    ∃ t q : Int, 0 < t ∧ t ^ 2 = (l - u) ^ 2 + 4 * (k - u) ∧ 2 * (k - 1) + (v - 3) * (l - u) = q * t ∧
      2 ∣ v - 3 - q := by
  obtain ⟨hu, hkv⟩ := lone_u h ho hm hx hlt
  have he := (C78_single h ho hm hx hd hlt).1
  have hux := (C56_degrees h ho hm hx).1
  have hv3 := h.v3
  have hpos : 0 < (l - u) ^ 2 + 4 * (k - u) := by
    have := sq_nonneg (l - u)
    omega
  have hposR : (0 : ℝ) < ((l - u) ^ 2 + 4 * (k - u) : Int) := by exact_mod_cast hpos
  obtain ⟨f, hf⟩ := lone_mult h ho hm hx hd hlt hu
    (D := √(((l - u) ^ 2 + 4 * (k - u) : Int) : ℝ)) (Real.sqrt_pos.2 hposR)
    (by rw [Real.sq_sqrt hposR.le]; push_cast; ring)
  set D := √(((l - u) ^ 2 + 4 * (k - u) : Int) : ℝ) with hD
  have hconf : ((2 * (k - 1) + (v - 3) * (l - u) : Int) : ℝ) = ((v : Int) - 3 - 2 * f : Int) * D := by
    push_cast
    linear_combination 2 * hf
  have hq : ((v : Int) - 3 - 2 * f : Int) ≠ 0 := by
    intro h0
    rw [h0] at hconf
    have h1 : (2 * (k - 1) + (v - 3) * (l - u) : Int) = 0 := by
      have : ((2 * (k - 1) + (v - 3) * (l - u) : Int) : ℝ) = 0 := by rw [hconf]; simp
      exact_mod_cast this
    have h2 : 0 ≤ ((v : Int) - 3) * (l - u) := mul_nonneg (by omega) (by omega)
    omega
  have hrat : ¬ Irrational D := by
    intro hi
    apply hi
    refine ⟨(2 * (k - 1) + (v - 3) * (l - u) : Int) / ((v : Int) - 3 - 2 * f : Int), ?_⟩
    have : (((v : Int) - 3 - 2 * f : Int) : ℝ) ≠ 0 := by exact_mod_cast hq
    rw [Rat.cast_div, Rat.cast_intCast, Rat.cast_intCast, hconf]
    field_simp
  rw [hD, irrational_sqrt_intCast_iff_of_nonneg hpos.le, not_not] at hrat
  obtain ⟨d0, hd0⟩ := hrat
  obtain ⟨d, hdd, hdp⟩ : ∃ d : Int, (l - u) ^ 2 + 4 * (k - u) = d * d ∧ 0 < d := by
    rcases lt_trichotomy d0 0 with h1 | h1 | h1
    · exact ⟨-d0, by rw [hd0]; ring, by omega⟩
    · rw [h1] at hd0; omega
    · exact ⟨d0, hd0, h1⟩
  have hDd : D = d := by
    rw [hD, hdd]
    push_cast
    exact Real.sqrt_mul_self (by exact_mod_cast hdp.le)
  refine ⟨d, v - 3 - 2 * f, hdp, by rw [hdd]; ring, ?_, ⟨f, by omega⟩⟩
  rw [hDd] at hconf
  exact_mod_cast hconf

/-- **C84.**  If just one vertex of a result has too few neighbours, then no strongly regular graph has these
parameters. -/
theorem C84_none {x : Nat} (hx : x < v) (hd : ∀ j < v, j ≠ x → Spec.deg m j = k) (hlt : Spec.deg m x < k) (M : Mat) :
    ¬ Spec.IsSRG v k l u M := by
  intro hM
  obtain ⟨hu, hkv⟩ := lone_u h ho hm hx hlt
  have he := (C78_single h ho hm hx hd hlt).1
  have hux := (C56_degrees h ho hm hx).1
  have hv3 := h.v3
  obtain ⟨t, q, ht, htt, hq, hq2⟩ := C84_condition h ho hm hx hd hlt
  have hnn : 0 ≤ ((v : Int) - 1) * (l - u) := mul_nonneg (by omega) (by omega)
  obtain ⟨t', q', ht', htt', hq', hq2', -⟩ := C40_integral hM (by omega) hkv (by omega)
  have htt2 : t' = t := (pow_left_inj₀ ht'.le ht.le two_ne_zero).1 (by rw [htt, htt'])
  subst htt2
  obtain ⟨e, hee⟩ : ∃ e, q' - q = 2 * e := ⟨(q' - q) / 2, by omega⟩
  have hde : l + 1 - u = e * t' := by
    have h1 : (q' - q) * t' = 2 * (l + 1 - u) := by linear_combination hq - hq'
    rw [hee] at h1
    linarith
  have he0 : 0 < e := by
    by_contra hc
    have : e * t' ≤ 0 := mul_nonpos_of_nonpos_of_nonneg (by omega) ht'.le
    omega
  have h1 : t' ≤ l + 1 - u := by rw [hde]; nlinarith
  nlinarith

/-- **C84.**  If a strongly regular graph with these parameters exists, then every wrong result has at least two
vertices with too few neighbours. -/
theorem C84_two {M : Mat} (hM : Spec.IsSRG v k l u M) (hw : ¬ Spec.IsSRG v k l u m) :
    ∃ x y, x < v ∧ y < v ∧ x ≠ y ∧ Spec.deg m x < k ∧ Spec.deg m y < k := by
  have ha := output_adj h ho hm
  obtain ⟨x, hx, hlt⟩ : ∃ x < v, Spec.deg m x < k := by
    by_contra hc
    push Not at hc
    refine hw ((C02_sound_of_regular h ho m hm).2 (fun r hr => ?_))
    obtain ⟨i, hi, rfl⟩ := List.getElem_of_mem hr
    have hiv : i < v := by rw [← ha.square]; exact hi
    have h1 := (C56_degrees h ho hm hiv).2
    have h2 := hc i hiv
    unfold Spec.deg at h1 h2
    rw [List.getD_eq_getElem _ _ hi] at h1 h2
    omega
  by_contra hc
  refine C84_none h ho hm hx (fun j hj hjx => ?_) hlt M hM
  have h1 := (C56_degrees h ho hm hj).2
  by_contra hne
  exact hc ⟨x, j, hx, hj, Ne.symm hjx, hlt, by omega⟩

end

/-- The parameters with at most 66 vertices that meet the condition. -/
def Spec.loneParams : List (Int × Int × Int × Int) :=
  [(21, 5, 1, 1), (21, 12, 7, 6), (22, 9, 4, 3), (22, 14, 9, 8), (27, 13, 7, 5), (36, 7, 2, 1), (36, 25, 18, 15),
    (45, 22, 11, 10), (45, 22, 13, 8), (52, 36, 25, 24), (55, 9, 3, 1), (55, 42, 33, 28), (56, 30, 19, 12),
    (57, 16, 5, 4), (57, 35, 22, 20), (65, 48, 37, 30), (66, 15, 4, 3)]

/-- The condition for natural numbers; `u` is determined by the others. -/
def loneTest (v k l u : Nat) : Bool :=
  Nat.beq (u * (v - k - 1)) (k * (k - l - 1)) && (Nat.ble 1 u && (Nat.ble u l && (List.range 70).any fun t =>
    Nat.beq (t * t) ((l - u) * (l - u) + 4 * (k - u)) &&
      (Nat.beq ((2 * (k - 1) + (v - 3) * (l - u)) % t) 0 &&
        Nat.beq ((v + 1 + (2 * (k - 1) + (v - 3) * (l - u)) / t) % 2) 0)))

theorem loneTest_all : ((List.range 67).all fun v => (List.range (v - 1)).all fun k =>
    (List.range' (2 * k - v) (k - (2 * k - v))).all fun l =>
      !loneTest v k l (k * (k - l - 1) / (v - k - 1)) || Spec.loneParams.contains
        ((v : Int), (k : Int), (l : Int), ((k * (k - l - 1) / (v - k - 1) : Nat) : Int))) = true := by
  decide +kernel

/-- **C84.**  With at most 66 vertices only 17 sets of parameters meet the condition: for all others every wrong
result has at least two vertices with too few neighbours. -/
theorem C84_list {v : Nat} {k l u : Int} (h : Good v k l u) {out : List Mat} (ho : IsOutput v k l u out)
    {m : Mat} (hm : m ∈ out) {x : Nat} (hx : x < v) (hd : ∀ j < v, j ≠ x → Spec.deg m j = k)
    (hlt : Spec.deg m x < k) : ((v : Int), k, l, u) ∈ Spec.loneParams := by
  obtain ⟨hu, hkv⟩ := lone_u h ho hm hx hlt
  have he := (C78_single h ho hm hx hd hlt).1
  have hux := (C56_degrees h ho hm hx).1
  obtain ⟨t, q, ht, htt, hq, hq2⟩ := C84_condition h ho hm hx hd hlt
  have hv3 := h.v3
  have hv66 := h.v66
  have hl0 := h.l0
  have hlk := h.lk
  have hroom := h.room
  have hcount := h.count
  obtain ⟨K, rfl⟩ := Int.eq_ofNat_of_zero_le (show 0 ≤ k by omega)
  obtain ⟨L, rfl⟩ := Int.eq_ofNat_of_zero_le hl0
  obtain ⟨U, rfl⟩ := Int.eq_ofNat_of_zero_le hu.le
  obtain ⟨T, rfl⟩ := Int.eq_ofNat_of_zero_le ht.le
  obtain ⟨W, rfl⟩ : ∃ W, v = K + 1 + W := ⟨v - (K + 1), by omega⟩
  obtain ⟨E, rfl⟩ : ∃ E, L = U + E := ⟨L - U, by omega⟩
  obtain ⟨B, rfl⟩ : ∃ B, K = U + E + 1 + B := ⟨K - (U + E + 1), by omega⟩
  have hW : 0 < W := by omega
  have hc' : U * W = (U + E + 1 + B) * B := by
    have : ((U * W : Nat) : Int) = (((U + E + 1 + B) * B : Nat) : Int) := by
      push_cast at hcount ⊢; linear_combination hcount
    exact_mod_cast this
  have hq0 : 0 ≤ q := by
    by_contra hc
    have h1 : q * (T : Int) < 0 := mul_neg_of_neg_of_pos (by omega) (by exact_mod_cast ht)
    have h2 : 0 ≤ ((((U + E + 1 + B) + 1 + W : Nat) : Int) - 3) * (((U + E : Nat) : Int) - U) :=
      mul_nonneg (by omega) (by omega)
    rw [← hq] at h1
    omega
  obtain ⟨Q, rfl⟩ := Int.eq_ofNat_of_zero_le hq0
  have hQ : 2 * (U + E + 1 + B - 1) + (U + E + 1 + B + 1 + W - 3) * (U + E - U) = Q * T := by
    have e1 : U + E + 1 + B - 1 = U + E + B := by omega
    have e2 : ((U + E + 1 + B + 1 + W - 3 : Nat) : Int) = (U + E + 1 + B + 1 + W : Nat) - 3 := by omega
    have e3 : U + E - U = E := by omega
    rw [e1, e3]
    have : ((2 * (U + E + B) + (U + E + 1 + B + 1 + W - 3) * E : Nat) : Int) = ((Q * T : Nat) : Int) := by
      push_cast [e2] at hq ⊢
      linear_combination hq
    exact_mod_cast this
  have hT2 : T * T = (U + E - U) * (U + E - U) + 4 * (U + E + 1 + B - U) := by
    have e3 : U + E - U = E := by omega
    have e4 : U + E + 1 + B - U = E + 1 + B := by omega
    rw [e3, e4]
    have : ((T * T : Nat) : Int) = ((E * E + 4 * (E + 1 + B) : Nat) : Int) := by
      push_cast at htt ⊢; linear_combination htt
    exact_mod_cast this
  have hT0 : 0 < T := by exact_mod_cast ht
  have hT70 : T < 70 := by
    have e3 : U + E - U = E := by omega
    have e4 : U + E + 1 + B - U = E + 1 + B := by omega
    rw [e3, e4] at hT2
    by_contra hc
    have h1 : 70 * 70 ≤ T * T := Nat.mul_le_mul (by omega) (by omega)
    have h2 : E * E ≤ 66 * 66 := Nat.mul_le_mul (by omega) (by omega)
    omega
  have hUdiv : (U + E + 1 + B) * (U + E + 1 + B - (U + E) - 1) / (U + E + 1 + B + 1 + W - (U + E + 1 + B) - 1) = U := by
    have e5 : U + E + 1 + B - (U + E) - 1 = B := by omega
    have e6 : U + E + 1 + B + 1 + W - (U + E + 1 + B) - 1 = W := by omega
    rw [e5, e6, ← hc', Nat.mul_div_cancel _ hW]
  have hall := loneTest_all
  simp only [List.all_eq_true, List.mem_range, List.mem_range'_1] at hall
  have h1 := hall (U + E + 1 + B + 1 + W) (by omega) (U + E + 1 + B) (by omega) (U + E) (by omega)
  rw [hUdiv, Bool.or_eq_true, Bool.not_eq_true'] at h1
  rcases h1 with h1 | h1
  · exfalso
    have : loneTest (U + E + 1 + B + 1 + W) (U + E + 1 + B) (U + E) U = true := by
      have e5 : U + E + 1 + B - (U + E) - 1 = B := by omega
      have e6 : U + E + 1 + B + 1 + W - (U + E + 1 + B) - 1 = W := by omega
      unfold loneTest
      simp only [Bool.and_eq_true, List.any_eq_true, List.mem_range, Nat.beq_eq, Nat.ble_eq]
      refine ⟨by rw [e5, e6, hc'], by omega, by omega, T, hT70, hT2, ?_, ?_⟩
      · rw [hQ, Nat.mul_mod_left]
      · rw [hQ, Nat.mul_div_cancel _ hT0]; omega
    rw [this] at h1
    exact Bool.noConfusion h1
  · simpa using h1

/-- Non-vacuity: `badM`, a result for (22, 9, 4, 3) by `C02_false`, is such a result, with `t = 5` and `q = 7`. -/
example : Spec.deg badM 17 < 9 ∧ (∀ j < 22, j ≠ 17 → Spec.deg badM j = 9) ∧
    (5 : Int) ^ 2 = (4 - 3) ^ 2 + 4 * (9 - 3) ∧ 2 * (9 - 1) + (22 - 3) * (4 - 3) = (7 : Int) * 5 ∧
    (2 : Int) ∣ 22 - 3 - 7 := by decide +kernel

/-- The search for (22, 9, 4, 3) looks for a graph that does not exist. -/
theorem C84_sample (M : Mat) : ¬ Spec.IsSRG 22 9 4 3 M := by
  obtain ⟨out, ho, hm, -⟩ := C02_false
  have h : Good 22 9 4 3 := by constructor <;> decide
  exact C84_none h ho hm (x := 17) (by decide) (by decide +kernel) (by decide +kernel) M

end TDS
