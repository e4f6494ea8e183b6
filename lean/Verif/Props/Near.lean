import Verif.Props.Void

/-!
C78: which pairs of vertices of a result are right.

C02 fails because some vertices may have too few neighbours.  The pairs of vertices that have the wrong number
of common neighbours are located here: a vertex with `k` neighbours is right with every neighbour of the last
vertex, and a vertex with `k` neighbours that all have `k` neighbours is right with every vertex.
-/

namespace TDS

open Finset

namespace Spec

/-- Common neighbours missing, with the missing neighbours on the diagonal. -/
def missing (k l u : Int) (m : Mat) (i j : Nat) : Int :=
  if i = j then k - deg m i else lack l u m i j

end Spec

section
variable {v : Nat} {k l u : Int} (h : Good v k l u) {out : List Mat} (ho : IsOutput v k l u out)
  {m : Mat} (hm : m ∈ out)
include h ho hm

theorem lack_eq {i j : Nat} (hi : i < v) :
    Spec.lack l u m i j = u + (l - u) * Spec.ent m i j - ∑ t ∈ range v, Spec.ent m i t * Spec.ent m j t := by
  have ha := output_adj h ho hm
  unfold Spec.lack
  rw [meet_eq_range, (isAdj_row ha hi).2]
  change _ - ∑ t ∈ range v, Spec.ent m i t * Spec.ent m j t = _
  rcases out_bin h ho hm i j with e | e <;> rw [e] <;> norm_num

/-- **C78.**  A vertex with `k` neighbours, all of which have `k` neighbours, is right with every vertex, and
conversely. -/
theorem C78_row {z : Nat} (hz : z < v) (hdz : Spec.deg m z = k) :
    (∀ j < v, j ≠ z → Spec.lack l u m z j = 0) ↔ ∀ t < v, Spec.ent m z t = 1 → Spec.deg m t = k := by
  have hb := out_bin h ho hm
  have h1 := lack_row h ho hm hz
  rw [hdz, sub_self, zero_mul, add_zero] at h1
  have hn : ∀ t ∈ range v, 0 ≤ Spec.ent m z t * (k - Spec.deg m t) := by
    intro t ht
    have := output_deg_le h ho hm (mem_range.1 ht)
    rcases hb z t with e | e <;> rw [e] <;> omega
  constructor
  · intro hx t ht e
    rw [Finset.sum_eq_zero (fun j hj => hx j (mem_range.1 (mem_erase.1 hj).2) (mem_erase.1 hj).1)] at h1
    have := (Finset.sum_eq_zero_iff_of_nonneg hn).1 h1.symm t (mem_range.2 ht)
    rw [e] at this
    omega
  · intro hx j hj hjz
    rw [Finset.sum_eq_zero (s := range v) (fun t ht => by
      rcases hb z t with e | e
      · rw [e, zero_mul]
      · rw [hx t (mem_range.1 ht) e, sub_self, mul_zero])] at h1
    exact (Finset.sum_eq_zero_iff_of_nonneg (fun j hj =>
      output_lack_nonneg h ho hm hz (mem_range.1 (mem_erase.1 hj).2) (Ne.symm (mem_erase.1 hj).1))).1 h1 j
      (mem_erase.2 ⟨hjz, mem_range.2 hj⟩)

/-- **C78.**  Where common neighbours are missing, each of the two vertices has too few neighbours or has a
neighbour with too few neighbours. -/
theorem C78_close {i j : Nat} (hi : i < v) (hj : j < v) (hij : i ≠ j) (hlt : Spec.lack l u m i j ≠ 0) :
    Spec.deg m i < k ∨ ∃ t < v, Spec.ent m i t = 1 ∧ Spec.deg m t < k := by
  by_contra hno
  push Not at hno
  have h1 := output_deg_le h ho hm hi
  refine hlt ((C78_row h ho hm hi (by omega)).2 (fun t ht e => ?_) j hj (Ne.symm hij))
  have h2 := output_deg_le h ho hm ht
  have h3 := hno.2 t ht e
  omega

/-- **C78.**  If vertex `z` has `k` neighbours and the right number of common neighbours with every vertex,
then what another vertex misses with the neighbours of `z` is determined by its degree. -/
theorem C78_sum {z i : Nat} (hz : z < v) (hi : i < v) (hiz : i ≠ z) (hdz : Spec.deg m z = k)
    (hx : ∀ j < v, j ≠ z → Spec.lack l u m z j = 0) :
    ∑ y ∈ (range v).erase i, Spec.ent m z y * Spec.lack l u m i y = u * (k - Spec.deg m i) := by
  have ha := output_adj h ho hm
  have hb := out_bin h ho hm
  have sq : ∀ a t, Spec.ent m a t * Spec.ent m a t = Spec.ent m a t := by
    intro a t
    rcases hb a t with e | e <;> rw [e] <;> norm_num
  have hdz' := hdz
  rw [deg_eq_sum ha hz] at hdz
  -- the walks from `i` over the neighbours of `z`
  have h1 : ∑ y ∈ range v, Spec.ent m z y * ∑ t ∈ range v, Spec.ent m i t * Spec.ent m y t =
      ∑ t ∈ range v, Spec.ent m i t * ∑ y ∈ range v, Spec.ent m z y * Spec.ent m t y := by
    simp only [Finset.mul_sum]
    rw [Finset.sum_comm]
    refine Finset.sum_congr rfl (fun t ht => Finset.sum_congr rfl (fun y hy => ?_))
    rw [out_sym h ho hm (mem_range.1 hy) (mem_range.1 ht)]
    ring
  have h2 : ∀ t < v, ∑ y ∈ range v, Spec.ent m z y * Spec.ent m t y =
      u + (l - u) * Spec.ent m z t + if t = z then k - u else 0 := by
    intro t ht
    by_cases e : t = z
    · subst e
      rw [if_pos rfl, out_diag h ho hm ht, Finset.sum_congr rfl (fun y _ => sq t y), hdz]
      ring
    · have := hx t ht e
      rw [lack_eq h ho hm hz] at this
      rw [if_neg e]
      omega
  have h3 : ∑ t ∈ range v, Spec.ent m i t * ∑ y ∈ range v, Spec.ent m z y * Spec.ent m t y =
      u * Spec.deg m i + (l - u) * (u + (l - u) * Spec.ent m z i) + (k - u) * Spec.ent m i z := by
    rw [Finset.sum_congr rfl (fun t ht => by rw [h2 t (mem_range.1 ht)]), deg_eq_sum ha hi]
    have e1 : ∀ t, Spec.ent m i t * (u + (l - u) * Spec.ent m z t + if t = z then k - u else 0) =
        u * Spec.ent m i t + (l - u) * (Spec.ent m z t * Spec.ent m i t) +
          if t = z then (k - u) * Spec.ent m i t else 0 := by
      intro t
      split <;> ring
    simp only [e1, Finset.sum_add_distrib, ← Finset.mul_sum, h2 i hi, if_neg hiz, Finset.sum_ite_eq',
      if_pos (mem_range.2 hz)]
    ring
  have h4 : Spec.ent m z i * (u + (l - u) * Spec.ent m i i - ∑ t ∈ range v, Spec.ent m i t * Spec.ent m i t) =
      Spec.ent m z i * (u - k) := by
    rcases hb z i with e | e
    · rw [e]; ring
    · -- a neighbour of `z` has degree `k`
      have h5 := (C78_row h ho hm hz hdz').1 hx i hi e
      rw [out_diag h ho hm hi, Finset.sum_congr rfl (fun t _ => sq i t), ← deg_eq_sum ha hi, h5]
      ring
  have h5 : ∑ y ∈ range v, Spec.ent m z y * Spec.lack l u m i y =
      u * k + (l - u) * (u + (l - u) * Spec.ent m z i) -
        ∑ t ∈ range v, Spec.ent m i t * ∑ y ∈ range v, Spec.ent m z y * Spec.ent m t y := by
    rw [← h1, Finset.sum_congr rfl (fun y _ => by rw [lack_eq h ho hm hi])]
    have e1 : ∀ y, Spec.ent m z y * (u + (l - u) * Spec.ent m i y - ∑ t ∈ range v, Spec.ent m i t * Spec.ent m y t) =
        u * Spec.ent m z y + (l - u) * (Spec.ent m z y * Spec.ent m i y) -
          Spec.ent m z y * ∑ t ∈ range v, Spec.ent m i t * Spec.ent m y t := by
      intro y; ring
    have h2i := h2 i hi
    rw [if_neg hiz, add_zero] at h2i
    simp only [e1, Finset.sum_add_distrib, Finset.sum_sub_distrib, ← Finset.mul_sum, hdz, h2i]
  rw [h3, ← Finset.add_sum_erase _ _ (mem_range.2 hi), lack_eq h ho hm hi, h4,
    out_sym h ho hm hz hi] at h5
  linear_combination h5

/-- **C78.**  Every vertex with `k` neighbours is then right with all neighbours of `z`. -/
theorem C78_full {z i y : Nat} (hz : z < v) (hi : i < v) (hiz : i ≠ z) (hdz : Spec.deg m z = k)
    (hx : ∀ j < v, j ≠ z → Spec.lack l u m z j = 0) (hdi : Spec.deg m i = k) (hy : y < v) (hyi : y ≠ i)
    (hzy : Spec.ent m z y = 1) : Spec.lack l u m i y = 0 := by
  have h1 := C78_sum h ho hm hz hi hiz hdz hx
  rw [hdi, sub_self, mul_zero] at h1
  have h2 := (Finset.sum_eq_zero_iff_of_nonneg (fun j hj => by
    have := output_lack_nonneg h ho hm hi (mem_range.1 (mem_erase.1 hj).2) (Ne.symm (mem_erase.1 hj).1)
    rcases out_bin h ho hm z j with e | e <;> rw [e] <;> omega)).1 h1 y (mem_erase.2 ⟨hyi, mem_range.2 hy⟩)
  rw [hzy] at h2
  omega

theorem last_exact : Spec.deg m (v - 1) = k ∧ ∀ j < v, j ≠ v - 1 → Spec.lack l u m (v - 1) j = 0 := by
  have hv3 := h.v3
  have hd : Spec.deg m (v - 1) = k := (C02_sound_partial h ho m hm).2.2.2.1
  exact ⟨hd, (C78_row h ho hm (by omega) hd).2 (fun t ht e => C56_neighbours h ho hm ht e)⟩

/-- **C78.**  In particular a vertex with `k` neighbours has the right number of common neighbours with the last
vertex and with each of its neighbours. -/
theorem C78_last {i y : Nat} (hi : i < v) (hdi : Spec.deg m i = k) (hy : y < v) (hyi : y ≠ i)
    (hzy : y = v - 1 ∨ Spec.ent m (v - 1) y = 1) : Spec.lack l u m i y = 0 := by
  have hv3 := h.v3
  obtain ⟨hd, hx⟩ := last_exact h ho hm
  by_cases hiz : i = v - 1
  · subst hiz
    exact hx y hy hyi
  rcases hzy with rfl | hzy
  · rw [lack_comm h ho hm hi hy]
    exact hx i hi hiz
  · exact C78_full h ho hm (by omega) hi hiz hd hx hdi hy hyi hzy

/-- **C78.**  A vertex that has `d` neighbours too few misses `u d` common neighbours with the neighbours of the
last vertex. -/
theorem C78_missing {i : Nat} (hi : i < v - 1) :
    ∑ y ∈ (range v).erase i, Spec.ent m (v - 1) y * Spec.lack l u m i y = u * (k - Spec.deg m i) := by
  obtain ⟨hd, hx⟩ := last_exact h ho hm
  exact C78_sum h ho hm (by omega) (by omega) (by omega) hd hx

theorem missing_eq {i j : Nat} (hi : i < v) (hj : j < v) :
    Spec.missing k l u m i j = u + (l - u) * Spec.ent m i j + (if i = j then k - u else 0) -
      ∑ t ∈ range v, Spec.ent m i t * Spec.ent m j t := by
  unfold Spec.missing
  split
  · rename_i e
    subst e
    have sq : ∀ t, Spec.ent m i t * Spec.ent m i t = Spec.ent m i t := by
      intro t
      rcases out_bin h ho hm i t with e | e <;> rw [e] <;> norm_num
    rw [out_diag h ho hm hi, Finset.sum_congr rfl (fun t _ => sq t), deg_eq_sum (output_adj h ho hm) hi]
    ring
  · rw [lack_eq h ho hm hi]
    ring

theorem missing_comm {i j : Nat} (hi : i < v) (hj : j < v) : Spec.missing k l u m i j = Spec.missing k l u m j i := by
  unfold Spec.missing
  by_cases e : i = j
  · subst e; rfl
  · rw [if_neg e, if_neg (Ne.symm e)]
    exact lack_comm h ho hm hi hj

/-- **C78.**  What is missing, seen from two vertices: the array of what is missing commutes with the adjacency
matrix up to the difference of the degrees. -/
theorem C78_commute {i j : Nat} (hi : i < v) (hj : j < v) :
    ∑ y ∈ range v, Spec.ent m i y * Spec.missing k l u m y j - ∑ y ∈ range v, Spec.missing k l u m i y * Spec.ent m y j =
      u * (Spec.deg m i - Spec.deg m j) := by
  have ha := output_adj h ho hm
  have e1 : ∑ y ∈ range v, Spec.ent m i y * ∑ t ∈ range v, Spec.ent m y t * Spec.ent m j t =
      ∑ y ∈ range v, (∑ t ∈ range v, Spec.ent m i t * Spec.ent m y t) * Spec.ent m y j := by
    simp only [Finset.mul_sum, Finset.sum_mul]
    rw [Finset.sum_comm]
    refine Finset.sum_congr rfl (fun t ht => Finset.sum_congr rfl (fun y hy => ?_))
    rw [out_sym h ho hm (mem_range.1 hy) (mem_range.1 ht), out_sym h ho hm hj (mem_range.1 ht)]
    ring
  have e2 : ∑ y ∈ range v, Spec.ent m i y * Spec.missing k l u m y j =
      u * Spec.deg m i + (l - u) * ∑ y ∈ range v, Spec.ent m i y * Spec.ent m y j +
        (k - u) * Spec.ent m i j -
        ∑ y ∈ range v, Spec.ent m i y * ∑ t ∈ range v, Spec.ent m y t * Spec.ent m j t := by
    have e : ∀ y ∈ range v, Spec.ent m i y * Spec.missing k l u m y j =
        u * Spec.ent m i y + (l - u) * (Spec.ent m i y * Spec.ent m y j) +
          (if y = j then (k - u) * Spec.ent m i y else 0) -
          Spec.ent m i y * ∑ t ∈ range v, Spec.ent m y t * Spec.ent m j t := by
      intro y hy
      rw [missing_eq h ho hm (mem_range.1 hy) hj]
      split <;> ring
    rw [Finset.sum_congr rfl e]
    simp only [Finset.sum_add_distrib, Finset.sum_sub_distrib, ← Finset.mul_sum, Finset.sum_ite_eq',
      if_pos (mem_range.2 hj), ← deg_eq_sum ha hi]
  have e3 : ∑ y ∈ range v, Spec.missing k l u m i y * Spec.ent m y j =
      u * Spec.deg m j + (l - u) * ∑ y ∈ range v, Spec.ent m i y * Spec.ent m y j +
        (k - u) * Spec.ent m i j -
        ∑ y ∈ range v, (∑ t ∈ range v, Spec.ent m i t * Spec.ent m y t) * Spec.ent m y j := by
    have e : ∀ y ∈ range v, Spec.missing k l u m i y * Spec.ent m y j =
        u * Spec.ent m j y + (l - u) * (Spec.ent m i y * Spec.ent m y j) +
          (if i = y then (k - u) * Spec.ent m y j else 0) -
          (∑ t ∈ range v, Spec.ent m i t * Spec.ent m y t) * Spec.ent m y j := by
      intro y hy
      rw [missing_eq h ho hm hi (mem_range.1 hy), out_sym h ho hm hj (mem_range.1 hy)]
      split <;> ring
    rw [Finset.sum_congr rfl e]
    simp only [Finset.sum_add_distrib, Finset.sum_sub_distrib, ← Finset.mul_sum, Finset.sum_ite_eq,
      if_pos (mem_range.2 hi), ← deg_eq_sum ha hj]
  rw [e2, e3, e1]
  ring

/-- **C78.**  A result in which just one vertex has too few neighbours: exactly `l + 1 - u` are missing, that many
common neighbours are missing with each of its neighbours, and nothing else is. -/
theorem C78_single {s : Nat} (hs : s < v) (hd : ∀ j < v, j ≠ s → Spec.deg m j = k)
    (hlt : Spec.deg m s < k) :
    k - Spec.deg m s = l + 1 - u ∧
    (∀ j < v, j ≠ s → Spec.lack l u m s j = Spec.ent m s j * (l + 1 - u)) ∧
    ∀ i < v, ∀ j < v, i ≠ s → j ≠ s → i ≠ j → Spec.lack l u m i j = 0 := by
  have ha := output_adj h ho hm
  have hb := out_bin h ho hm
  have sym : ∀ {i j : Nat}, i < v → j < v → Spec.ent m i j = Spec.ent m j i := fun hi hj => out_sym h ho hm hi hj
  obtain ⟨d, hdd⟩ : ∃ d, d = k - Spec.deg m s := ⟨_, rfl⟩
  have hd0 : 0 < d := by omega
  -- what is missing at the other vertices
  have hrow : ∀ j < v, j ≠ s → ∑ t ∈ (range v).erase j, Spec.lack l u m j t = Spec.ent m s j * d := by
    intro j hj hjs
    rw [lack_row h ho hm hj, hd j hj hjs, sub_self, zero_mul, add_zero,
      Finset.sum_eq_single s (fun t ht hts => by rw [hd t (mem_range.1 ht) hts, sub_self, mul_zero])
        (fun hns => (hns (mem_range.2 hs)).elim), sym hj hs, hdd]
  have hnn : ∀ j < v, ∀ t ∈ (range v).erase j, 0 ≤ Spec.lack l u m j t := fun j hj t ht =>
    output_lack_nonneg h ho hm hj (mem_range.1 (mem_erase.1 ht).2) (Ne.symm (mem_erase.1 ht).1)
  have hle : ∀ y < v, y ≠ s → Spec.lack l u m s y ≤ Spec.ent m s y * d := by
    intro y hy hys
    rw [← hrow y hy hys, lack_comm h ho hm hs hy]
    exact Finset.single_le_sum (f := fun t => Spec.lack l u m y t) (fun t ht => hnn y hy t ht)
      (mem_erase.2 ⟨Ne.symm hys, mem_range.2 hs⟩)
  have hfar : ∀ j < v, j ≠ s → Spec.ent m s j = 0 → ∀ t < v, t ≠ j → Spec.lack l u m j t = 0 := by
    intro j hj hjs e t ht htj
    have h1 := hrow j hj hjs
    rw [e, zero_mul] at h1
    exact (Finset.sum_eq_zero_iff_of_nonneg (hnn j hj)).1 h1 t (mem_erase.2 ⟨htj, mem_range.2 ht⟩)
  -- a common neighbour of `s` and a vertex not adjacent to `s`
  have hcom : ∀ j < v, j ≠ s → Spec.ent m s j = 0 → ∀ y < v, Spec.ent m s y = 1 → Spec.ent m y j = 1 →
      Spec.lack l u m s y = d := by
    intro j hj hjs e y hy hsy hyj
    have h1 := C78_commute h ho hm hs hj
    rw [Finset.sum_eq_zero (s := range v) (f := fun y => Spec.ent m s y * Spec.missing k l u m y j), hd j hj hjs] at h1
    · have h2 : ∑ y ∈ range v, Spec.missing k l u m s y * Spec.ent m y j = u * d := by
        rw [hdd]
        linear_combination -h1
      have h3 : ∀ y ∈ range v, Spec.missing k l u m s y * Spec.ent m y j ≤ d * (Spec.ent m s y * Spec.ent m j y) := by
        intro y hy
        have hy := mem_range.1 hy
        rw [sym hj hy]
        by_cases eys : y = s
        · subst eys
          rw [e]
          norm_num
        · have := hle y hy eys
          unfold Spec.missing
          rw [if_neg (Ne.symm eys)]
          rcases hb y j with f | f <;> rw [f]
          · simp
          · linarith
      have h4 : ∑ y ∈ range v, d * (Spec.ent m s y * Spec.ent m j y) ≤ u * d := by
        have := meet_le h ho hm hs hj (Ne.symm hjs)
        rw [e, if_neg (by norm_num)] at this
        rw [← Finset.mul_sum, mul_comm u d]
        exact mul_le_mul_of_nonneg_left this (by omega)
      have h5 : ∑ y ∈ range v, Spec.missing k l u m s y * Spec.ent m y j =
          ∑ y ∈ range v, d * (Spec.ent m s y * Spec.ent m j y) :=
        le_antisymm (Finset.sum_le_sum h3) (by rw [h2]; exact h4)
      have h6 := (Finset.sum_eq_sum_iff_of_le h3).1 h5 y (mem_range.2 hy)
      have hys : s ≠ y := by
        rintro rfl
        rw [out_diag h ho hm hs] at hsy
        omega
      unfold Spec.missing at h6
      rw [if_neg hys, hyj, hsy, sym hj hy, hyj] at h6
      omega
    · intro y hy
      have hy := mem_range.1 hy
      rcases hb s y with f | f
      · rw [f, zero_mul]
      · have hyj : y ≠ j := by
          rintro rfl
          omega
        unfold Spec.missing
        rw [if_neg hyj, lack_comm h ho hm hy hj, hfar j hj hjs e y hy hyj, mul_zero]
  -- every neighbour of `s` has a neighbour of that kind
  have hout : ∀ y < v, Spec.ent m s y = 1 → Spec.lack l u m s y = d := by
    intro y hy hsy
    have hys : y ≠ s := by
      rintro rfl
      rw [out_diag h ho hm hs] at hsy
      omega
    obtain ⟨j, hj, hjs, hsj, hyj⟩ : ∃ j < v, j ≠ s ∧ Spec.ent m s j = 0 ∧ Spec.ent m y j = 1 := by
      by_contra hno
      push Not at hno
      have h1 : ∑ t ∈ range v, Spec.ent m y t ≤ ∑ t ∈ range v, (Spec.ent m s t +
          ((if t = s then 1 else 0) - if t = y then 1 else 0)) := by
        refine Finset.sum_le_sum (fun t ht => ?_)
        by_cases e1 : t = s
        · subst e1
          rw [if_pos rfl, if_neg (Ne.symm hys), out_diag h ho hm hs]
          rcases hb y t with f | f <;> rw [f] <;> norm_num
        by_cases e2 : t = y
        · subst e2
          rw [if_neg e1, if_pos rfl, out_diag h ho hm hy, hsy]
          norm_num
        rw [if_neg e1, if_neg e2]
        rcases hb s t with f | f
        · have := hno t (mem_range.1 ht) e1 f
          rw [f, (hb y t).resolve_right this]
          norm_num
        · rw [f]
          rcases hb y t with g | g <;> rw [g] <;> norm_num
      simp only [Finset.sum_add_distrib, Finset.sum_sub_distrib, Finset.sum_ite_eq', if_pos (mem_range.2 hs),
        if_pos (mem_range.2 hy), ← deg_eq_sum ha hs, ← deg_eq_sum ha hy, hd y hy hys] at h1
      omega
    exact hcom j hj hjs hsj y hy hsy hyj
  have hall : ∀ j < v, j ≠ s → Spec.lack l u m s j = Spec.ent m s j * d := by
    intro j hj hjs
    rcases hb s j with e | e
    · rw [e, zero_mul, lack_comm h ho hm hs hj]
      exact hfar j hj hjs e s hs (Ne.symm hjs)
    · rw [e, one_mul]
      exact hout j hj e
  have hdl : d = l + 1 - u := by
    have h1 := lack_row h ho hm hs
    rw [Finset.sum_congr rfl (fun j hj => hall j (mem_range.1 (mem_erase.1 hj).2) (mem_erase.1 hj).1),
      ← Finset.sum_mul] at h1
    have h2 : ∑ j ∈ (range v).erase s, Spec.ent m s j = Spec.deg m s := by
      rw [deg_eq_sum ha hs, ← Finset.add_sum_erase _ _ (mem_range.2 hs), out_diag h ho hm hs, zero_add]
    have h3 : ∑ t ∈ range v, Spec.ent m s t * (k - Spec.deg m t) = 0 := by
      refine Finset.sum_eq_zero (fun t ht => ?_)
      by_cases e : t = s
      · subst e
        rw [out_diag h ho hm hs, zero_mul]
      · rw [hd t (mem_range.1 ht) e, sub_self, mul_zero]
    rw [h2, h3, zero_add, ← hdd, mul_comm] at h1
    have := mul_left_cancel₀ (ne_of_gt hd0) h1
    omega
  refine ⟨by omega, fun j hj hjs => by rw [hall j hj hjs, hdl], fun i hi j hj his hjs hij => ?_⟩
  have h1 := hrow i hi his
  have hsi : s ∈ (range v).erase i := mem_erase.2 ⟨Ne.symm his, mem_range.2 hs⟩
  rw [← Finset.add_sum_erase _ _ hsi, lack_comm h ho hm hi hs, hall i hi his] at h1
  have h2 : ∑ t ∈ ((range v).erase i).erase s, Spec.lack l u m i t = 0 := by omega
  exact (Finset.sum_eq_zero_iff_of_nonneg (fun t ht => hnn i hi t (mem_of_mem_erase ht))).1 h2 j
    (mem_erase.2 ⟨hjs, mem_erase.2 ⟨Ne.symm hij, mem_range.2 hj⟩⟩)

/-- **C78.**  The neighbourhood of the last vertex is as in a strongly regular graph: walks of length two weighted
with any numbers on the neighbours of the last vertex. -/
theorem C78_form {f : Nat → Int} (hf : ∀ y < v, Spec.ent m (v - 1) y = 0 → f y = 0) :
    ∑ t ∈ range v, (∑ y ∈ range v, f y * Spec.ent m y t) ^ 2 =
      (k - u) * ∑ y ∈ range v, f y ^ 2 +
      (l - u) * ∑ x ∈ range v, ∑ y ∈ range v, f x * f y * Spec.ent m x y + u * (∑ y ∈ range v, f y) ^ 2 := by
  have hb := out_bin h ho hm
  have h0 : ∀ x < v, ∀ y < v, f x * f y * Spec.missing k l u m x y = 0 := by
    intro x hx y hy
    rcases hb (v - 1) x with e | e
    · rw [hf x hx e]; ring
    rcases hb (v - 1) y with e' | e'
    · rw [hf y hy e']; ring
    have hd := C56_neighbours h ho hm hx e
    unfold Spec.missing
    split
    · rw [hd]; ring
    · rename_i hne
      rw [C78_last h ho hm hx hd hy (Ne.symm hne) (Or.inr e')]
      ring
  have h1 : ∀ x ∈ range v, ∀ y ∈ range v, f x * f y * ∑ t ∈ range v, Spec.ent m x t * Spec.ent m y t =
      u * (f x * f y) + (l - u) * (f x * f y * Spec.ent m x y) + if x = y then (k - u) * (f x * f y) else 0 := by
    intro x hx y hy
    have := h0 x (mem_range.1 hx) y (mem_range.1 hy)
    rw [missing_eq h ho hm (mem_range.1 hx) (mem_range.1 hy)] at this
    split at this <;> rename_i e
    · rw [if_pos e]
      linear_combination -this
    · rw [if_neg e]
      linear_combination -this
  have h2 : ∑ t ∈ range v, (∑ y ∈ range v, f y * Spec.ent m y t) ^ 2 =
      ∑ x ∈ range v, ∑ y ∈ range v, f x * f y * ∑ t ∈ range v, Spec.ent m x t * Spec.ent m y t := by
    simp only [pow_two, Finset.mul_sum]
    rw [Finset.sum_comm]
    refine Finset.sum_congr rfl (fun x _ => ?_)
    simp only [Finset.sum_mul]
    rw [Finset.sum_comm]
    refine Finset.sum_congr rfl (fun y _ => Finset.sum_congr rfl (fun t _ => ?_))
    ring
  rw [h2, Finset.sum_congr rfl (fun x hx => Finset.sum_congr rfl (h1 x hx))]
  simp only [Finset.sum_add_distrib, ← Finset.mul_sum, Finset.sum_ite_eq, pow_two, Finset.sum_mul_sum]
  have h3 : ∑ x ∈ range v, (if x ∈ range v then (k - u) * (f x * f x) else 0) =
      (k - u) * ∑ y ∈ range v, f y * f y := by
    rw [Finset.mul_sum]
    exact Finset.sum_congr rfl (fun x hx => if_pos hx)
  rw [h3]
  ring

/-- **C78.**  Hence the bound on the eigenvalues of the neighbourhood that strongly regular graphs satisfy. -/
theorem C78_local {f : Nat → Int} (hf : ∀ y < v, Spec.ent m (v - 1) y = 0 → f y = 0) :
    ∑ t ∈ range v, Spec.ent m (v - 1) t * (∑ y ∈ range v, f y * Spec.ent m y t) ^ 2 ≤
      (k - u) * ∑ y ∈ range v, f y ^ 2 +
      (l - u) * ∑ x ∈ range v, ∑ y ∈ range v, f x * f y * Spec.ent m x y +
      (u - 1) * (∑ y ∈ range v, f y) ^ 2 := by
  have hv3 := h.v3
  have hz : v - 1 < v := by omega
  have hb := out_bin h ho hm
  have h1 := C78_form h ho hm hf
  have h2 : ∑ y ∈ range v, f y * Spec.ent m y (v - 1) = ∑ y ∈ range v, f y := by
    refine Finset.sum_congr rfl (fun y hy => ?_)
    rw [out_sym h ho hm (mem_range.1 hy) hz]
    rcases hb (v - 1) y with e | e
    · rw [hf y (mem_range.1 hy) e, zero_mul]
    · rw [e, mul_one]
  have h3 : ∑ t ∈ range v, (Spec.ent m (v - 1) t * (∑ y ∈ range v, f y * Spec.ent m y t) ^ 2 +
      if t = v - 1 then (∑ y ∈ range v, f y * Spec.ent m y t) ^ 2 else 0) ≤
      ∑ t ∈ range v, (∑ y ∈ range v, f y * Spec.ent m y t) ^ 2 := by
    refine Finset.sum_le_sum (fun t _ => ?_)
    have hp := sq_nonneg (∑ y ∈ range v, f y * Spec.ent m y t)
    by_cases e : t = v - 1
    · rw [if_pos e, e, out_diag h ho hm hz]
      linarith
    · rw [if_neg e]
      rcases hb (v - 1) t with g | g <;> rw [g] <;> linarith
  rw [Finset.sum_add_distrib, Finset.sum_ite_eq', if_pos (mem_range.2 hz), h2, h1] at h3
  linarith

end

/-- Non-vacuity: (22,9,4,3) has a result with just one vertex of too small degree, and 2 = 4 + 1 - 3. -/
example : 9 - Spec.deg badM 17 = 4 + 1 - 3 ∧
    (List.range 22).all (fun j => j == 17 || (Spec.deg badM j == 9 &&
      Spec.lack 4 3 badM 17 j == Spec.ent badM 17 j * (4 + 1 - 3))) = true := by decide +kernel

/-- Non-vacuity of the bound: in that result the weights 1 and -1 on the first and the last neighbour of vertex 21
give 2 on the left, 10 on the right. -/
example : let f : Nat → Int := fun y => if y = 4 then 1 else if y = 20 then -1 else 0
    (∀ y < 22, Spec.ent badM 21 y = 0 → f y = 0) ∧
    (((List.range 22).map (fun t => Spec.ent badM 21 t *
      (((List.range 22).map (fun y => f y * Spec.ent badM y t)).sum) ^ 2)).sum,
     (9 - 3) * ((List.range 22).map (fun y => f y ^ 2)).sum + (4 - 3) * ((List.range 22).map (fun x =>
      ((List.range 22).map (fun y => f x * f y * Spec.ent badM x y)).sum)).sum +
      (3 - 1) * (((List.range 22).map f).sum) ^ 2) = (2, 10) := by decide +kernel

/-- Non-vacuity: in the wrong result of (22,9,4,3) the last vertex and its neighbours are as stated, and vertex
17, which has two neighbours too few, misses 3 * 2 common neighbours with them. -/
example : Spec.deg badM 17 = 9 - 2 ∧ Spec.deg badM 21 = 9 ∧
    (((List.range 22).filter (fun y => y ≠ 17)).map (fun y =>
      Spec.ent badM 21 y * Spec.lack 4 3 badM 17 y)).sum = 3 * 2 ∧
    (List.range 22).all (fun i => (List.range 22).all (fun y => i == y || Spec.deg badM i != 9 ||
      Spec.ent badM 21 y != 1 || Spec.lack 4 3 badM i y == 0)) = true := by decide +kernel

end TDS
