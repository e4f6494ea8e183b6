import Verif.Props.C02
import Mathlib.Tactic.LinearCombination

/-! C56: how far a result that is not strongly regular can be off. -/

namespace TDS

open Finset

namespace Spec

/-- Number of neighbours. -/
def deg (m : Mat) (i : Nat) : Int := (m.getD i []).sum

/-- Common neighbours missing between two vertices. -/
def lack (l u : Int) (m : Mat) (i j : Nat) : Int :=
  (if Spec.ent m i j = 1 then l else u) - Spec.meet (m.getD i []) (m.getD j [])

end Spec

section
variable {v : Nat} {m : Mat} (ha : Spec.IsAdj v m)
include ha

theorem deg_eq_sum {i : Nat} (hi : i < v) : Spec.deg m i = ∑ t ∈ range v, Spec.ent m i t := by
  unfold Spec.deg
  rw [sum_eq_range, (isAdj_row ha hi).2]
  rfl

theorem sum_meet {i : Nat} (hi : i < v) :
    ∑ j ∈ range v, Spec.meet (m.getD i []) (m.getD j []) =
      ∑ t ∈ range v, Spec.ent m i t * Spec.deg m t := by
  have hmeet : ∀ j ∈ range v, Spec.meet (m.getD i []) (m.getD j []) =
      ∑ t ∈ range v, Spec.ent m i t * Spec.ent m j t := by
    intro j _
    rw [meet_eq_range, (isAdj_row ha hi).2]
    rfl
  rw [Finset.sum_congr rfl hmeet, Finset.sum_comm]
  refine Finset.sum_congr rfl (fun t ht => ?_)
  rw [Finset.mem_range] at ht
  rw [← Finset.mul_sum, deg_eq_sum ha ht]
  congr 1
  refine Finset.sum_congr rfl (fun j hj => ?_)
  rw [Finset.mem_range] at hj
  exact ha.sym.sym _ (by rw [ha.square]; exact hj) _ (by rw [ha.square]; exact ht)

theorem meet_self {i : Nat} (hi : i < v) :
    Spec.meet (m.getD i []) (m.getD i []) = Spec.deg m i := by
  rw [meet_eq_range, (isAdj_row ha hi).2, deg_eq_sum ha hi]
  refine Finset.sum_congr rfl (fun t _ => ?_)
  change Spec.ent m i t * Spec.ent m i t = Spec.ent m i t
  rcases ent_bin ha.part i t with h | h <;> rw [h] <;> rfl

/-- Counting walks of length two from one vertex. -/
theorem walks {i : Nat} (hi : i < v) (l u : Int) :
    ∑ t ∈ range v, Spec.ent m i t * Spec.deg m t +
      ∑ j ∈ (range v).erase i, Spec.lack l u m i j =
      Spec.deg m i * (1 + l - u) + u * (v - 1) := by
  have hmem : i ∈ range v := Finset.mem_range.2 hi
  have h1 := sum_meet ha hi
  rw [← Finset.add_sum_erase _ _ hmem, meet_self ha hi] at h1
  have h2 : ∑ j ∈ (range v).erase i, (if Spec.ent m i j = 1 then l else u) =
      Spec.deg m i * (l - u) + u * (v - 1) := by
    have e : ∀ j ∈ (range v).erase i, (if Spec.ent m i j = 1 then l else u) =
        Spec.ent m i j * (l - u) + u := by
      intro j _
      rcases ent_bin ha.part i j with h | h <;> rw [h] <;> simp
    rw [Finset.sum_congr rfl e, Finset.sum_add_distrib, ← Finset.sum_mul, deg_eq_sum ha hi,
      ← Finset.add_sum_erase _ _ hmem, ha.sym.diag i (by rw [ha.square]; exact hi), zero_add]
    simp only [Finset.sum_const, Finset.card_erase_of_mem hmem, Finset.card_range, nsmul_eq_mul]
    rw [Nat.cast_sub (by omega)]
    push_cast
    ring
  have h3 : ∑ j ∈ (range v).erase i, Spec.lack l u m i j =
      ∑ j ∈ (range v).erase i, (if Spec.ent m i j = 1 then l else u) -
      ∑ j ∈ (range v).erase i, Spec.meet (m.getD i []) (m.getD j []) := by
    rw [← Finset.sum_sub_distrib]
    rfl
  rw [h3, h2, ← h1]
  ring

end

section
variable {v : Nat} {k l u : Int} (h : Good v k l u) {out : List Mat} (ho : IsOutput v k l u out)
variable {m : Mat} (hm : m ∈ out)
include h ho hm

theorem output_adj : Spec.IsAdj v m :=
  (C03_structure h.v3 h.v66 (Or.inl ⟨h.l0, h.lk⟩) ho m hm).1

theorem output_deg_le {i : Nat} (hi : i < v) : Spec.deg m i ≤ k :=
  (C02_sound_partial h ho m hm).2.1 _ (isAdj_row (output_adj h ho hm) hi).1

theorem output_lack_nonneg {i j : Nat} (hi : i < v) (hj : j < v) (hij : i ≠ j) :
    0 ≤ Spec.lack l u m i j := by
  have ha := output_adj h ho hm
  have hp := (C02_sound_partial h ho m hm).2.2.1
  unfold Spec.lack
  rcases Nat.lt_or_ge i j with hlt | hge
  · have := hp i j hlt hj; omega
  · have := hp j i (by omega) hi
    rw [meet_comm (by rw [(isAdj_row ha hi).2, (isAdj_row ha hj).2]),
      ha.sym.sym i (by rw [ha.square]; exact hi) j (by rw [ha.square]; exact hj)]
    omega

/-- **C56.**  In every result the neighbours of the last vertex have exactly `k` neighbours. -/
theorem C56_neighbours {i : Nat} (hi : i < v) (hn : Spec.ent m (v - 1) i = 1) :
    Spec.deg m i = k := by
  have ha := output_adj h ho hm
  have hv3 := h.v3
  obtain ⟨-, -, -, hk, hx⟩ := C02_sound_partial h ho m hm
  have hz : v - 1 < v := by omega
  have hw := walks ha hz l u
  have hl0 : ∑ j ∈ (range v).erase (v - 1), Spec.lack l u m (v - 1) j = 0 := by
    refine Finset.sum_eq_zero (fun j hj => ?_)
    rw [Finset.mem_erase, Finset.mem_range] at hj
    have := hx j (by omega)
    unfold Spec.lack
    rw [meet_comm (by rw [(isAdj_row ha hz).2, (isAdj_row ha hj.2).2]), this,
      ha.sym.sym (v - 1) (by rw [ha.square]; exact hz) j (by rw [ha.square]; exact hj.2)]
    omega
  have hdz : Spec.deg m (v - 1) = k := hk
  have hsum : ∑ t ∈ range v, Spec.ent m (v - 1) t * Spec.deg m t =
      ∑ t ∈ range v, Spec.ent m (v - 1) t * k := by
    rw [← Finset.sum_mul, ← deg_eq_sum ha hz, hdz]
    rw [hl0, hdz] at hw
    have := h.count
    linarith
  have hall : ∀ t ∈ range v, Spec.ent m (v - 1) t * Spec.deg m t ≤ Spec.ent m (v - 1) t * k := by
    intro t ht
    have := output_deg_le h ho hm (Finset.mem_range.1 ht)
    rcases ent_bin ha.part (v - 1) t with e | e <;> rw [e] <;> omega
  have := (Finset.sum_eq_sum_iff_of_le hall).1 hsum i (Finset.mem_range.2 hi)
  rw [hn] at this
  omega

/-- **C56.**  In every result each vertex has at least `u` and at most `k` neighbours. -/
theorem C56_degrees {i : Nat} (hi : i < v) : u ≤ Spec.deg m i ∧ Spec.deg m i ≤ k := by
  have ha := output_adj h ho hm
  have hv3 := h.v3
  refine ⟨?_, output_deg_le h ho hm hi⟩
  obtain ⟨-, -, -, hk, hx⟩ := C02_sound_partial h ho m hm
  have hz : v - 1 < v := by omega
  by_cases hiz : i = v - 1
  · rw [hiz]
    have e : Spec.deg m (v - 1) = k := hk
    rw [e]; exact h.u_bound.2
  by_cases hn : Spec.ent m (v - 1) i = 1
  · rw [C56_neighbours h ho hm hi hn]; exact h.u_bound.2
  · have h1 := hx i (by omega)
    rw [ha.sym.sym i (by rw [ha.square]; exact hi) (v - 1) (by rw [ha.square]; exact hz),
      if_neg hn] at h1
    rw [← h1, meet_eq_range, (isAdj_row ha hi).2, deg_eq_sum ha hi]
    refine Finset.sum_le_sum (fun t _ => ?_)
    change Spec.ent m i t * Spec.ent m (v - 1) t ≤ Spec.ent m i t
    rcases ent_bin ha.part i t with e | e <;> rcases ent_bin ha.part (v - 1) t with e' | e' <;>
      rw [e, e'] <;> decide

/-- **C56.**  In every result the missing common neighbours and the missing neighbours balance. -/
theorem C56_balance :
    ∑ i ∈ range v, ∑ j ∈ (range v).erase i, Spec.lack l u m i j =
      ∑ i ∈ range v, (k - Spec.deg m i) * (k + Spec.deg m i - 1 - l + u) := by
  have ha := output_adj h ho hm
  have e1 : ∀ i ∈ range v, ∑ j ∈ (range v).erase i, Spec.lack l u m i j =
      Spec.deg m i * (1 + l - u) + u * (v - 1) -
        ∑ t ∈ range v, Spec.ent m i t * Spec.deg m t := by
    intro i hi
    have := walks ha (Finset.mem_range.1 hi) l u
    linarith
  have e2 : ∑ i ∈ range v, ∑ t ∈ range v, Spec.ent m i t * Spec.deg m t =
      ∑ t ∈ range v, Spec.deg m t * Spec.deg m t := by
    rw [Finset.sum_comm]
    refine Finset.sum_congr rfl (fun t ht => ?_)
    rw [← Finset.sum_mul]
    congr 1
    rw [deg_eq_sum ha (Finset.mem_range.1 ht)]
    refine Finset.sum_congr rfl (fun i hi => ?_)
    exact ha.sym.sym _ (by rw [ha.square]; exact Finset.mem_range.1 hi) _
      (by rw [ha.square]; exact Finset.mem_range.1 ht)
  rw [Finset.sum_congr rfl e1, Finset.sum_sub_distrib, e2, ← Finset.sum_sub_distrib]
  refine Finset.sum_congr rfl (fun i _ => ?_)
  have := h.count
  have e3 : u * ((v : Int) - 1) = k * (k - l - 1) + u * k := by linarith
  rw [e3]
  ring

/-- **C56.**  For `u = k` every result is strongly regular. -/
theorem C56_multipartite (hu : u = k) : Spec.IsSRG v k l u m := by
  refine (C02_sound_of_regular h ho m hm).2 (fun r hr => ?_)
  have ha := output_adj h ho hm
  obtain ⟨i, hi, rfl⟩ := List.getElem_of_mem hr
  have hiv : i < v := by rw [← ha.square]; exact hi
  have := C56_degrees h ho hm hiv
  unfold Spec.deg at this
  rw [List.getD_eq_getElem _ _ hi] at this
  omega

theorem lack_comm {i j : Nat} (hi : i < v) (hj : j < v) : Spec.lack l u m i j = Spec.lack l u m j i := by
  have ha := output_adj h ho hm
  unfold Spec.lack
  rw [meet_comm (by rw [(isAdj_row ha hi).2, (isAdj_row ha hj).2]),
    ha.sym.sym i (by rw [ha.square]; exact hi) j (by rw [ha.square]; exact hj)]

/-- What is missing at one vertex, counted by what its neighbours miss. -/
theorem lack_row {i : Nat} (hi : i < v) :
    ∑ j ∈ (range v).erase i, Spec.lack l u m i j =
      ∑ t ∈ range v, Spec.ent m i t * (k - Spec.deg m t) + (k - Spec.deg m i) * (k + u - 1 - l) := by
  have ha := output_adj h ho hm
  have h1 := walks ha hi l u
  have h2 : ∑ t ∈ range v, Spec.ent m i t * (k - Spec.deg m t) =
      Spec.deg m i * k - ∑ t ∈ range v, Spec.ent m i t * Spec.deg m t := by
    rw [deg_eq_sum ha hi, Finset.sum_mul, ← Finset.sum_sub_distrib]
    exact Finset.sum_congr rfl (fun t _ => by ring)
  have := h.count
  rw [h2]
  linear_combination h1 + this

/-- **C56.**  The common neighbours missing among the vertices of too small degree: if all of these are in
`D`, at least so many are missing between the vertices of `D`. -/
theorem C56_inside {D : Finset Nat} (hD : D ⊆ range v) (hd : ∀ i < v, i ∉ D → Spec.deg m i = k) :
    ∑ i ∈ D, (k - Spec.deg m i) * (2 * ∑ t ∈ D, Spec.ent m i t + (k - Spec.deg m i) + (u - 1 - l)) ≤
      ∑ i ∈ D, ∑ j ∈ D.erase i, Spec.lack l u m i j := by
  have ha := output_adj h ho hm
  have hlt : ∀ i ∈ D, i < v := fun i hi => mem_range.1 (hD hi)
  have sym : ∀ i < v, ∀ j < v, Spec.ent m i j = Spec.ent m j i := fun i hi j hj =>
    ha.sym.sym i (by rw [ha.square]; exact hi) j (by rw [ha.square]; exact hj)
  -- deficits vanish outside
  have hout : ∀ f : Nat → Int, ∑ t ∈ range v, f t * (k - Spec.deg m t) = ∑ t ∈ D, f t * (k - Spec.deg m t) := by
    intro f
    symm
    refine Finset.sum_subset hD (fun t ht htD => ?_)
    rw [hd t (mem_range.1 ht) htD, sub_self, mul_zero]
  -- between `D` and the rest
  have cross : ∑ i ∈ D, ∑ j ∈ range v \ D, Spec.lack l u m i j ≤
      ∑ t ∈ D, (Spec.deg m t - ∑ i ∈ D, Spec.ent m t i) * (k - Spec.deg m t) := by
    rw [Finset.sum_comm]
    have h1 : ∀ j ∈ range v \ D, ∑ i ∈ D, Spec.lack l u m i j ≤
        ∑ t ∈ D, Spec.ent m j t * (k - Spec.deg m t) := by
      intro j hj
      obtain ⟨hjv, hjD⟩ := mem_sdiff.1 hj
      have hjv := mem_range.1 hjv
      have h2 := lack_row h ho hm hjv
      rw [hd j hjv hjD, sub_self, zero_mul, add_zero, hout] at h2
      rw [← h2, Finset.sum_congr rfl (fun i hi => lack_comm h ho hm (hlt i hi) hjv)]
      refine Finset.sum_le_sum_of_subset_of_nonneg ?_ ?_
      · intro i hi
        exact mem_erase.2 ⟨fun e => hjD (e ▸ hi), hD hi⟩
      · intro i hi _
        obtain ⟨h3, h4⟩ := mem_erase.1 hi
        exact output_lack_nonneg h ho hm hjv (mem_range.1 h4) (Ne.symm h3)
    refine (Finset.sum_le_sum h1).trans (le_of_eq ?_)
    rw [Finset.sum_comm]
    refine Finset.sum_congr rfl (fun t ht => ?_)
    rw [← Finset.sum_mul]
    congr 1
    rw [deg_eq_sum ha (hlt t ht), ← Finset.sum_sdiff hD, add_sub_cancel_right]
    exact Finset.sum_congr rfl (fun j hj => sym _ (mem_range.1 (mem_sdiff.1 hj).1) _ (hlt t ht))
  -- all that is missing at `D`
  have total : ∑ i ∈ D, ∑ j ∈ (range v).erase i, Spec.lack l u m i j =
      ∑ i ∈ D, (k - Spec.deg m i) * (∑ t ∈ D, Spec.ent m i t + (k + u - 1 - l)) := by
    rw [Finset.sum_congr rfl (fun i hi => lack_row h ho hm (hlt i hi)), Finset.sum_add_distrib]
    have h1 : ∑ i ∈ D, ∑ t ∈ range v, Spec.ent m i t * (k - Spec.deg m t) =
        ∑ i ∈ D, (k - Spec.deg m i) * ∑ t ∈ D, Spec.ent m i t := by
      rw [Finset.sum_congr rfl (fun i _ => hout _), Finset.sum_comm]
      refine Finset.sum_congr rfl (fun t ht => ?_)
      rw [← Finset.sum_mul, mul_comm]
      congr 1
      exact Finset.sum_congr rfl (fun i hi => sym _ (hlt i hi) _ (hlt t ht))
    rw [h1, ← Finset.sum_add_distrib]
    exact Finset.sum_congr rfl (fun i _ => by ring)
  have split : ∀ i ∈ D, ∑ j ∈ (range v).erase i, Spec.lack l u m i j =
      ∑ j ∈ D.erase i, Spec.lack l u m i j + ∑ j ∈ range v \ D, Spec.lack l u m i j := by
    intro i hi
    have : (range v).erase i = D.erase i ∪ (range v \ D) := by
      ext j
      simp only [mem_erase, mem_union, mem_sdiff]
      constructor
      · rintro ⟨h1, h2⟩
        by_cases hj : j ∈ D
        · exact Or.inl ⟨h1, hj⟩
        · exact Or.inr ⟨h2, hj⟩
      · rintro (⟨h1, h2⟩ | ⟨h1, h2⟩)
        · exact ⟨h1, hD h2⟩
        · exact ⟨fun e => h2 (e ▸ hi), h1⟩
    rw [this, Finset.sum_union]
    rw [disjoint_left]
    intro j h1 h2
    exact (mem_sdiff.1 h2).2 (mem_of_mem_erase h1)
  rw [Finset.sum_congr rfl split, Finset.sum_add_distrib] at total
  have e : ∑ i ∈ D, (k - Spec.deg m i) * (2 * ∑ t ∈ D, Spec.ent m i t + (k - Spec.deg m i) + (u - 1 - l)) =
      ∑ i ∈ D, (k - Spec.deg m i) * (∑ t ∈ D, Spec.ent m i t + (k + u - 1 - l)) -
      ∑ t ∈ D, (Spec.deg m t - ∑ i ∈ D, Spec.ent m t i) * (k - Spec.deg m t) := by
    rw [← Finset.sum_sub_distrib]
    exact Finset.sum_congr rfl (fun i _ => by ring)
  rw [e]
  linarith

/-- **C56.**  A single vertex of too small degree misses at most `l + 1 - u` neighbours. -/
theorem C56_single {i : Nat} (hi : i < v) (hd : ∀ j < v, j ≠ i → Spec.deg m j = k) (hlt : Spec.deg m i < k) :
    k - Spec.deg m i ≤ l + 1 - u := by
  have ha := output_adj h ho hm
  have := C56_inside h ho hm (D := {i}) (by simpa using hi) (fun j hj hji => hd j hj (by simpa using hji))
  simp only [Finset.sum_singleton, ha.sym.diag i (by rw [ha.square]; exact hi), Finset.erase_singleton,
    Finset.sum_empty, mul_zero, zero_add] at this
  have h2 : k - Spec.deg m i + (u - 1 - l) ≤ 0 := by
    by_contra hc
    have := mul_pos (show 0 < k - Spec.deg m i by omega) (not_le.1 hc)
    omega
  omega

/-- **C56.**  If `l < u`, a result that is not strongly regular has two vertices of too small degree, with too
few common neighbours. -/
theorem C56_two (hlu : l < u) (hn : ¬ Spec.IsSRG v k l u m) : ∃ i j, i < v ∧ j < v ∧ i ≠ j ∧
    Spec.deg m i < k ∧ Spec.deg m j < k ∧ 0 < Spec.lack l u m i j := by
  have ha := output_adj h ho hm
  by_contra hno
  push Not at hno
  let D := (range v).filter (fun i => Spec.deg m i < k)
  have hDv : D ⊆ range v := filter_subset _ _
  have key := C56_inside h ho hm (D := D) hDv (fun i hi hiD => by
    have h1 := output_deg_le h ho hm hi
    by_contra hne
    exact hiD (mem_filter.2 ⟨mem_range.2 hi, by omega⟩))
  have h0 : ∑ i ∈ D, ∑ j ∈ D.erase i, Spec.lack l u m i j ≤ 0 := by
    refine Finset.sum_nonpos (fun i hi => Finset.sum_nonpos (fun j hj => ?_))
    obtain ⟨hji, hj⟩ := mem_erase.1 hj
    obtain ⟨hi, hi'⟩ := mem_filter.1 hi
    obtain ⟨hj, hj'⟩ := mem_filter.1 hj
    exact hno i j (mem_range.1 hi) (mem_range.1 hj) (Ne.symm hji) hi' hj'
  have hpos : ∀ i ∈ D, 0 < (k - Spec.deg m i) *
      (2 * ∑ t ∈ D, Spec.ent m i t + (k - Spec.deg m i) + (u - 1 - l)) := by
    intro i hi
    obtain ⟨hi, hi'⟩ := mem_filter.1 hi
    have h1 : 0 ≤ ∑ t ∈ D, Spec.ent m i t := Finset.sum_nonneg (fun t _ => by
      rcases ent_bin ha.part i t with e | e <;> omega)
    exact mul_pos (by omega) (by omega)
  rcases D.eq_empty_or_nonempty with hE | hne
  · refine hn ((C02_sound_of_regular h ho m hm).2 (fun r hr => ?_))
    obtain ⟨i, hi, rfl⟩ := List.getElem_of_mem hr
    have hiv : i < v := by rw [← ha.square]; exact hi
    have h1 := output_deg_le h ho hm hiv
    have h2 : ¬ Spec.deg m i < k := fun hlt => by
      have : i ∈ D := mem_filter.2 ⟨mem_range.2 hiv, hlt⟩
      rw [hE] at this
      simp at this
    unfold Spec.deg at h1 h2
    rw [List.getD_eq_getElem _ _ hi] at h1 h2
    omega
  · have := Finset.sum_pos hpos hne
    omega

/-- Two vertices share at least `2 u - k` neighbours among those of the last vertex. -/
theorem meet_lower {i j : Nat} (hi : i < v - 1) (hj : j < v - 1) (hiz : Spec.ent m i (v - 1) = 0)
    (hjz : Spec.ent m j (v - 1) = 0) : 2 * u - k ≤ Spec.meet (m.getD i []) (m.getD j []) := by
  have ha := output_adj h ho hm
  have hv3 := h.v3
  obtain ⟨-, -, -, hk, hx⟩ := C02_sound_partial h ho m hm
  have hi' : i < v := by omega
  have hj' : j < v := by omega
  have h1 := hx i hi
  have h2 := hx j hj
  rw [hiz] at h1
  rw [hjz] at h2
  simp only [zero_ne_one, if_false] at h1 h2
  rw [meet_eq_range, (isAdj_row ha hi').2] at h1 ⊢
  rw [meet_eq_range, (isAdj_row ha hj').2] at h2
  have h3 : ∑ t ∈ range v, Spec.ent m (v - 1) t = k := by
    rw [← deg_eq_sum ha (by omega)]
    exact hk
  rw [← h1, ← h3, two_mul]
  nth_rewrite 2 [h1]
  rw [← h2, ← Finset.sum_add_distrib, ← Finset.sum_sub_distrib]
  refine Finset.sum_le_sum (fun t _ => ?_)
  change Spec.ent m i t * Spec.ent m (v - 1) t + Spec.ent m j t * Spec.ent m (v - 1) t - Spec.ent m (v - 1) t ≤
    Spec.ent m i t * Spec.ent m j t
  rcases ent_bin ha.part i t with e1 | e1 <;> rcases ent_bin ha.part j t with e2 | e2 <;>
    rcases ent_bin ha.part (v - 1) t with e3 | e3 <;> rw [e1, e2, e3] <;> norm_num

/-- **C56.**  The first two vertices have exactly `k` neighbours. -/
theorem C56_first {i : Nat} (hi : i < 2) (hkv : k + 1 < v) : Spec.deg m i = k := by
  have hs := (C03_structure h.v3 h.v66 (Or.inl ⟨h.l0, h.lk⟩) ho m hm).2
  have hl := h.lk
  have hl0 := h.l0
  have hr := h.room
  rw [seed_eq (by have := h.v3; omega)] at hs
  have hs := Except.ok.inj hs
  have e : m.getD i [] = (m.take 2).getD i [] := by
    simp only [List.getD_eq_getElem?_getD, List.getElem?_take, if_pos hi]
  unfold Spec.deg
  rw [e, ← hs]
  rcases (show i = 0 ∨ i = 1 by omega) with rfl | rfl
  · exact seed0_sum (by omega) (by omega)
  · exact seed1_sum hl0 hl (by omega) hr

omit ho hm in
/-- For `u = k - 1` the parameters are determined by `k`. -/
theorem almost_params (hu : u = k - 1) (hk2 : 2 ≤ k) : l = 0 ∧ (v : Int) = 2 * k + 1 := by
  have hl0 := h.l0
  have hlk := h.lk
  have hkv : k + 1 < v := by
    have := h.kv
    have := h.degenerate
    omega
  have hc := h.count
  rw [hu] at hc
  have hdvd : k ∣ (v : Int) - k - 1 := by
    have h1 : k ∣ ((v : Int) - k - 1) * (k - 1) := hc ▸ dvd_mul_right _ _
    have h2 : ((v : Int) - k - 1) * (k - 1) = k * (v - k - 1) - (v - k - 1) := by ring
    rw [h2] at h1
    exact (dvd_sub_right (dvd_mul_right _ _)).1 h1
  obtain ⟨c, hc'⟩ := hdvd
  rw [hc', mul_assoc] at hc
  have hc2 : c * (k - 1) = k - l - 1 := mul_left_cancel₀ (by omega) hc
  have hc1 : c = 1 := by
    have h1 : 0 < c := by
      by_contra hneg
      have : k * c ≤ 0 := mul_nonpos_of_nonneg_of_nonpos (by omega) (by omega)
      omega
    by_contra hne
    have h2 : 2 * (k - 1) ≤ c * (k - 1) := mul_le_mul_of_nonneg_right (by omega) (by omega)
    omega
  subst hc1
  constructor <;> omega

theorem zero_last (hkv : k + 1 < v) : Spec.ent m 0 (v - 1) = 0 := by
  have hv3 := h.v3
  have hs := (C03_structure h.v3 h.v66 (Or.inl ⟨h.l0, h.lk⟩) ho m hm).2
  have hl0 := h.l0
  have hlk := h.lk
  rw [seed_eq (by omega)] at hs
  have e : m.getD 0 [] = (m.take 2).getD 0 [] := by
    simp only [List.getD_eq_getElem?_getD, List.getElem?_take, if_pos (show 0 < 2 by norm_num)]
  unfold Spec.ent
  rw [e, ← Except.ok.inj hs]
  refine (seed0_getD (show v - 1 < v by omega)).trans (if_neg ?_)
  rw [pyIdx_nonneg (by omega)]
  omega

/-- **C56.**  For `u = k - 1` too every result is strongly regular. -/
theorem C56_almost (hu : u = k - 1) (hk2 : 2 ≤ k) : Spec.IsSRG v k l u m := by
  have ha := output_adj h ho hm
  have hv3 := h.v3
  have hl0 := h.l0
  have hlk := h.lk
  have hkv : k + 1 < v := by
    have := h.kv
    have := h.degenerate
    omega
  obtain ⟨hl, hv⟩ := almost_params h hu hk2
  -- the vertices of too small degree
  let D := (range v).filter (fun i => Spec.deg m i < k)
  have hDv : D ⊆ range v := filter_subset _ _
  have hdeg : ∀ i ∈ D, Spec.deg m i = k - 1 := by
    intro i hi
    obtain ⟨hi, hi'⟩ := mem_filter.1 hi
    have := (C56_degrees h ho hm (mem_range.1 hi)).1
    omega
  have hDz : ∀ i ∈ D, i < v - 1 ∧ Spec.ent m i (v - 1) = 0 ∧ i ≠ 0 := by
    intro i hi
    obtain ⟨hi, hi'⟩ := mem_filter.1 hi
    have hiv := mem_range.1 hi
    refine ⟨?_, ?_, ?_⟩
    · by_contra hne
      have e : i = v - 1 := by omega
      have hk := (C02_sound_partial h ho m hm).2.2.2.1
      rw [e] at hi'
      unfold Spec.deg at hi'
      omega
    · rcases ent_bin ha.part i (v - 1) with e | e
      · exact e
      · rw [ha.sym.sym i (by rw [ha.square]; exact hiv) (v - 1) (by rw [ha.square]; omega)] at e
        have := C56_neighbours h ho hm hiv e
        omega
    · rintro rfl
      have := C56_first h ho hm (i := 0) (by norm_num) hkv
      omega
  have hcard : (D.card : Int) ≤ k - 1 := by
    have hz0 : Spec.ent m (v - 1) 0 = 0 := by
      rw [ha.sym.sym _ (by rw [ha.square]; omega) _ (by rw [ha.square]; omega)]
      exact zero_last h ho hm hkv
    have h1 : D ⊆ (((range v).filter (fun t => Spec.ent m (v - 1) t = 0)).erase (v - 1)).erase 0 := by
      intro i hi
      obtain ⟨h1, h2, h3⟩ := hDz i hi
      refine mem_erase.2 ⟨h3, mem_erase.2 ⟨by omega, mem_filter.2 ⟨mem_range.2 (by omega), ?_⟩⟩⟩
      rw [← h2]
      exact ha.sym.sym _ (by rw [ha.square]; omega) _ (by rw [ha.square]; omega)
    have h2 := card_le_card h1
    have h3 : (((range v).filter (fun t => Spec.ent m (v - 1) t = 0)).card : Int) = v - k := by
      have hk := (C02_sound_partial h ho m hm).2.2.2.1
      have h4 : ∑ t ∈ range v, Spec.ent m (v - 1) t = k := by
        rw [← deg_eq_sum ha (by omega)]
        exact hk
      have h5 : ∑ t ∈ range v, (1 - Spec.ent m (v - 1) t) = v - k := by
        rw [Finset.sum_sub_distrib, h4]
        simp
      rw [← h5, Finset.card_filter]
      push_cast
      refine Finset.sum_congr rfl (fun t _ => ?_)
      rcases ent_bin ha.part (v - 1) t with e | e <;> rw [e] <;> simp
    rw [card_erase_of_mem (mem_erase.2 ⟨by omega, mem_filter.2 ⟨mem_range.2 (by omega), hz0⟩⟩),
      card_erase_of_mem (mem_filter.2 ⟨mem_range.2 (by omega),
        ha.sym.diag _ (by rw [ha.square]; omega)⟩)] at h2
    omega
  have key := C56_inside h ho hm (D := D) hDv (fun i hi hiD => by
    have h1 := output_deg_le h ho hm hi
    by_contra hne
    exact hiD (mem_filter.2 ⟨mem_range.2 hi, by omega⟩))
  have hup : ∀ i ∈ D, ∑ j ∈ D.erase i, Spec.lack l u m i j ≤ (D.card : Int) - 1 := by
    intro i hi
    have h1 : ∀ j ∈ D.erase i, Spec.lack l u m i j ≤ 1 := by
      intro j hj
      obtain ⟨hji, hj⟩ := mem_erase.1 hj
      obtain ⟨hi1, hi2, -⟩ := hDz i hi
      obtain ⟨hj1, hj2, -⟩ := hDz j hj
      have h2 := meet_lower h ho hm hi1 hj1 hi2 hj2
      have h3 := output_lack_nonneg h ho hm (show i < v by omega) (show j < v by omega) (Ne.symm hji)
      unfold Spec.lack at h3 ⊢
      split at h3 <;> rename_i he
      · rw [if_pos he]
        omega
      · rw [if_neg he]
        omega
    refine (Finset.sum_le_card_nsmul _ _ _ h1).trans ?_
    rw [card_erase_of_mem hi, nsmul_eq_mul, mul_one, Nat.cast_sub (card_pos.2 ⟨i, hi⟩)]
    simp
  have hlow : ∀ i ∈ D, k - 1 ≤ (k - Spec.deg m i) *
      (2 * ∑ t ∈ D, Spec.ent m i t + (k - Spec.deg m i) + (u - 1 - l)) := by
    intro i hi
    have h1 : 0 ≤ ∑ t ∈ D, Spec.ent m i t := Finset.sum_nonneg (fun t _ => by
      rcases ent_bin ha.part i t with e | e <;> omega)
    rw [hdeg i hi]
    have : k - (k - 1) = 1 := by ring
    rw [this, one_mul]
    omega
  have hE : D = ∅ := by
    by_contra hne
    have h1 := Finset.card_nsmul_le_sum D _ _ hlow
    have h2 := Finset.sum_le_card_nsmul D _ _ hup
    have h3 := h1.trans (key.trans h2)
    rw [nsmul_eq_mul, nsmul_eq_mul] at h3
    have hp : 0 < (D.card : Int) := by exact_mod_cast card_pos.2 (nonempty_iff_ne_empty.2 hne)
    have := le_of_mul_le_mul_left h3 hp
    omega
  refine (C02_sound_of_regular h ho m hm).2 (fun r hr => ?_)
  obtain ⟨i, hi, rfl⟩ := List.getElem_of_mem hr
  have hiv : i < v := by rw [← ha.square]; exact hi
  have h1 := output_deg_le h ho hm hiv
  have h2 : ¬ Spec.deg m i < k := fun hlt => by
    have : i ∈ D := mem_filter.2 ⟨mem_range.2 hiv, hlt⟩
    rw [hE] at this
    simp at this
  unfold Spec.deg at h1 h2
  rw [List.getD_eq_getElem _ _ hi] at h1 h2
  omega

omit hm in
/-- **C56.**  There is none except for `k = 2`. -/
theorem C56_almost_empty (hu : u = k - 1) (hk3 : 3 ≤ k) : out = [] := by
  rw [List.eq_nil_iff_forall_not_mem]
  intro m hm
  have ha := output_adj h ho hm
  have hv3 := h.v3
  have hkv : k + 1 < v := by
    have := h.kv
    have := h.degenerate
    omega
  obtain ⟨hl, hv⟩ := almost_params h hu (by omega)
  have h0z := zero_last h ho hm hkv
  have hdeg := C56_first h ho hm (i := 0) (by norm_num) hkv
  have hmeet := (C02_sound_partial h ho m hm).2.2.2.2 0 (by omega)
  rw [h0z, if_neg (by norm_num), meet_eq_range, (isAdj_row ha (show 0 < v by omega)).2] at hmeet
  rw [deg_eq_sum ha (by omega)] at hdeg
  obtain ⟨w, hw, hw0, hwz⟩ : ∃ w < v, Spec.ent m 0 w = 1 ∧ Spec.ent m (v - 1) w = 0 := by
    by_contra hno
    push Not at hno
    have : ∑ t ∈ range v, Spec.ent m 0 t ≤
        ∑ t ∈ range v, (m.getD 0 []).getD t 0 * (m.getD (v - 1) []).getD t 0 := by
      refine Finset.sum_le_sum (fun t ht => ?_)
      change Spec.ent m 0 t ≤ Spec.ent m 0 t * Spec.ent m (v - 1) t
      rcases ent_bin ha.part 0 t with e | e
      · rw [e]; norm_num
      · rcases ent_bin ha.part (v - 1) t with e' | e'
        · exact (hno t (mem_range.1 ht) e e').elim
        · rw [e, e']; norm_num
    omega
  have hwv : w ≠ v - 1 := by
    rintro rfl
    omega
  have hw' : Spec.ent m w (v - 1) = 0 := by
    rw [← hwz]
    exact ha.sym.sym _ (by rw [ha.square]; omega) _ (by rw [ha.square]; omega)
  have h1 := meet_lower h ho hm (show 0 < v - 1 by omega) (show w < v - 1 by omega) h0z hw'
  have hw1 : w ≠ 0 := by
    rintro rfl
    have := ha.sym.diag 0 (by rw [ha.square]; omega)
    omega
  have h2 := output_lack_nonneg h ho hm (show 0 < v by omega) hw (Ne.symm hw1)
  unfold Spec.lack at h2
  rw [if_pos hw0] at h2
  omega

end

/-- The result of (22,9,4,3) that is not regular: one vertex has two neighbours too few, and its
seven neighbours have two common neighbours too few with it. -/
example : (List.range 22).map (Spec.deg badM) =
      [9, 9, 9, 9, 9, 9, 9, 9, 9, 9, 9, 9, 9, 9, 9, 9, 9, 7, 9, 9, 9, 9] ∧
    (List.range 22).map (fun j => if j = 17 then 0 else Spec.lack 4 3 badM 17 j) =
      ((badM.getD 17 []).map (fun x => 2 * x)) := by decide +kernel

/-- Non-vacuity of the last part: (6,4,2,4), the octahedron. -/
example : Good 6 4 2 4 ∧ ((seed 6 4 2 4 >>= solve).map List.length) = .ok 1 :=
  ⟨⟨by decide, by decide, by decide, by decide, by decide, by decide, by decide, by decide⟩,
    by decide +kernel⟩

/-- Non-vacuity of the part on `u = k - 1`: the pentagon for `k = 2`, nothing for (7,3,0,2). -/
example : Good 5 2 0 1 ∧ ((seed 5 2 0 1 >>= solve).map List.length) = .ok 1 ∧
    Good 7 3 0 2 ∧ (seed 7 3 0 2 >>= solve) = .ok [] :=
  ⟨⟨by decide, by decide, by decide, by decide, by decide, by decide, by decide, by decide⟩, by decide +kernel,
    ⟨by decide, by decide, by decide, by decide, by decide, by decide, by decide, by decide⟩, by decide +kernel⟩

end TDS
