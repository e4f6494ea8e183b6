import Verif.Proof.Blocks
import Verif.Props.Database

/-!
C77: parameters for which the search comes out empty, whatever the size.

The row of the last vertex of a result is exact (C56): its `k` neighbours have degree `k` and share `l`
neighbours with it, all other vertices share `u`.  Counting inside the neighbourhood of that vertex gives five
conditions on the parameters.  They are classical for strongly regular graphs; here they are shown for every
matrix that the search returns, so that an empty answer is certain even where the results need not be right.
-/

namespace TDS

open Finset

/-- A symmetric array of integers with zero diagonal has an even sum. -/
theorem even_sum_sym (s : Finset Nat) (f : Nat → Nat → Int) (hs : ∀ i ∈ s, ∀ j ∈ s, f i j = f j i)
    (hd : ∀ i ∈ s, f i i = 0) : 2 ∣ ∑ i ∈ s, ∑ j ∈ s, f i j := by
  induction s using Finset.induction_on with
  | empty => simp
  | insert a s ha ih =>
    have h1 := ih (fun i hi j hj => hs i (mem_insert_of_mem hi) j (mem_insert_of_mem hj))
      (fun i hi => hd i (mem_insert_of_mem hi))
    have h2 : ∑ i ∈ insert a s, ∑ j ∈ insert a s, f i j =
        2 * ∑ j ∈ s, f a j + ∑ i ∈ s, ∑ j ∈ s, f i j := by
      have h3 : ∑ i ∈ s, f i a = ∑ j ∈ s, f a j :=
        Finset.sum_congr rfl (fun i hi => hs i (mem_insert_of_mem hi) a (mem_insert_self _ _))
      simp only [Finset.sum_insert ha, Finset.sum_add_distrib, h3, hd a (mem_insert_self _ _)]
      ring
    rw [h2]
    exact dvd_add (dvd_mul_right _ _) h1

section
variable {v : Nat} {k l u : Int} (h : Good v k l u) {out : List Mat} (ho : IsOutput v k l u out)
  {m : Mat} (hm : m ∈ out)
include h ho hm

theorem last_sum : ∑ t ∈ range v, Spec.ent m (v - 1) t = k := by
  have hv3 := h.v3
  rw [← deg_eq_sum (output_adj h ho hm) (by omega)]
  exact (C02_sound_partial h ho m hm).2.2.2.1

theorem last_meet {i : Nat} (hi : i < v - 1) :
    ∑ t ∈ range v, Spec.ent m i t * Spec.ent m (v - 1) t = if Spec.ent m i (v - 1) = 1 then l else u := by
  have ha := output_adj h ho hm
  have h1 := (C02_sound_partial h ho m hm).2.2.2.2 i hi
  rw [meet_eq_range, (isAdj_row ha (show i < v by omega)).2] at h1
  exact h1

theorem meet_le {i j : Nat} (hi : i < v) (hj : j < v) (hij : i ≠ j) :
    ∑ t ∈ range v, Spec.ent m i t * Spec.ent m j t ≤ if Spec.ent m i j = 1 then l else u := by
  have ha := output_adj h ho hm
  have h1 := output_lack_nonneg h ho hm hi hj hij
  unfold Spec.lack at h1
  rw [meet_eq_range, (isAdj_row ha hi).2] at h1
  change 0 ≤ _ - ∑ t ∈ range v, Spec.ent m i t * Spec.ent m j t at h1
  omega

theorem out_sym {i j : Nat} (hi : i < v) (hj : j < v) : Spec.ent m i j = Spec.ent m j i := by
  have ha := output_adj h ho hm
  exact ha.sym.sym _ (by rw [ha.square]; exact hi) _ (by rw [ha.square]; exact hj)

theorem out_diag {i : Nat} (hi : i < v) : Spec.ent m i i = 0 := by
  have ha := output_adj h ho hm
  exact ha.sym.diag _ (by rw [ha.square]; exact hi)

theorem out_bin (i j : Nat) : Spec.ent m i j = 0 ∨ Spec.ent m i j = 1 := ent_bin (output_adj h ho hm).part i j

/-- The neighbours of the last vertex. -/
theorem last_nbr {x : Nat} (hx : x < v) (hzx : Spec.ent m (v - 1) x = 1) :
    x < v - 1 ∧ Spec.ent m x (v - 1) = 1 ∧
      ∑ t ∈ range v, Spec.ent m x t * Spec.ent m (v - 1) t = l := by
  have hv3 := h.v3
  have h1 : x ≠ v - 1 := by
    rintro rfl
    have := out_diag h ho hm hx
    omega
  have h2 : Spec.ent m x (v - 1) = 1 := by
    rw [out_sym h ho hm hx (by omega)]
    exact hzx
  refine ⟨by omega, h2, ?_⟩
  rw [last_meet h ho hm (by omega), if_pos h2]

omit hm in
/-- **C77.**  If `2 u > k + l`, and the graph is not to be complete multipartite, nothing is returned. -/
theorem C77_close (huk : u < k) (h2 : k + l < 2 * u) : out = [] := by
  rw [List.eq_nil_iff_forall_not_mem]
  intro m hm
  have hv3 := h.v3
  have hl0 := h.l0
  have hkv : k + 1 < v := by
    have := h.kv
    have := h.degenerate
    omega
  have hz := zero_last h ho hm hkv
  have hdeg := C56_first h ho hm (i := 0) (by norm_num) hkv
  have hmeet := last_meet h ho hm (i := 0) (by omega)
  rw [hz, if_neg (by norm_num)] at hmeet
  rw [deg_eq_sum (output_adj h ho hm) (by omega)] at hdeg
  obtain ⟨w, hw, hw0, hwz⟩ : ∃ w < v, Spec.ent m 0 w = 1 ∧ Spec.ent m (v - 1) w = 0 := by
    by_contra hno
    push Not at hno
    have : ∑ t ∈ range v, Spec.ent m 0 t ≤ ∑ t ∈ range v, Spec.ent m 0 t * Spec.ent m (v - 1) t := by
      refine Finset.sum_le_sum (fun t ht => ?_)
      rcases out_bin h ho hm 0 t with e | e
      · rw [e]; norm_num
      · rcases out_bin h ho hm (v - 1) t with e' | e'
        · exact (hno t (mem_range.1 ht) e e').elim
        · rw [e, e']; norm_num
    omega
  have hwv : w ≠ v - 1 := by
    rintro rfl
    omega
  have hw' : Spec.ent m w (v - 1) = 0 := by
    rw [← hwz]
    exact out_sym h ho hm hw (by omega)
  have h1 := meet_lower h ho hm (show 0 < v - 1 by omega) (show w < v - 1 by omega) hz hw'
  have hw1 : w ≠ 0 := by
    rintro rfl
    have := out_diag h ho hm hw
    omega
  have h3 := output_lack_nonneg h ho hm (show 0 < v by omega) hw (Ne.symm hw1)
  unfold Spec.lack at h3
  rw [if_pos hw0] at h3
  omega

omit hm in
/-- **C77.**  If `v < 2 k - u + 2`, that is, if two vertices that are not adjacent do not have room for their
neighbours, nothing is returned. -/
theorem C77_room (hkv : k + 1 < v) (h2 : (v : Int) < 2 * k - u + 2) : out = [] := by
  rw [List.eq_nil_iff_forall_not_mem]
  intro m hm
  have hv3 := h.v3
  have hb := out_bin h ho hm
  have hz := zero_last h ho hm hkv
  have hdeg := C56_first h ho hm (i := 0) (by norm_num) hkv
  have hmeet := last_meet h ho hm (i := 0) (by omega)
  have hsum := last_sum h ho hm
  rw [hz, if_neg (by norm_num)] at hmeet
  rw [deg_eq_sum (output_adj h ho hm) (by omega)] at hdeg
  have key : ∑ t ∈ range v, (Spec.ent m 0 t + Spec.ent m (v - 1) t - Spec.ent m 0 t * Spec.ent m (v - 1) t +
      ((if t = 0 then 1 else 0) + (if t = v - 1 then 1 else 0))) ≤ ∑ t ∈ range v, (1 : Int) := by
    refine Finset.sum_le_sum (fun t _ => ?_)
    by_cases e1 : t = 0
    · subst e1
      rw [if_pos rfl, if_neg (by omega), out_diag h ho hm (by omega), out_sym h ho hm (show v - 1 < v by omega)
        (show 0 < v by omega), hz]
      norm_num
    by_cases e2 : t = v - 1
    · subst e2
      rw [if_neg e1, if_pos rfl, out_diag h ho hm (by omega), hz]
      norm_num
    rw [if_neg e1, if_neg e2]
    rcases hb 0 t with f1 | f1 <;> rcases hb (v - 1) t with f2 | f2 <;> rw [f1, f2] <;> norm_num
  simp only [Finset.sum_add_distrib, Finset.sum_sub_distrib, hmeet, hdeg, hsum, Finset.sum_ite_eq',
    mem_range, if_pos (show 0 < v by omega), if_pos (show v - 1 < v by omega), Finset.sum_const, card_range,
    nsmul_eq_mul, mul_one] at key
  omega

omit hm in
/-- **C77.**  If `2 l + 2 ≥ k + u`, and the graph is not to consist of complete graphs, nothing is returned. -/
theorem C77_dense (hlk : l + 1 < k) (h2 : k + u < 2 * l + 3) : out = [] := by
  rw [List.eq_nil_iff_forall_not_mem]
  intro m hm
  have hv3 := h.v3
  have hl0 := h.l0
  have hsum := last_sum h ho hm
  have hb := out_bin h ho hm
  obtain ⟨x, hx, hzx⟩ : ∃ x < v, Spec.ent m (v - 1) x = 1 := by
    by_contra hno
    push Not at hno
    have : ∑ t ∈ range v, Spec.ent m (v - 1) t = 0 := Finset.sum_eq_zero (fun t ht =>
      (hb (v - 1) t).resolve_right (hno t (mem_range.1 ht)))
    omega
  obtain ⟨hxv, hxz, hxm⟩ := last_nbr h ho hm hx hzx
  obtain ⟨w, hw, hwx, hzw, hxw⟩ : ∃ w < v, w ≠ x ∧ Spec.ent m (v - 1) w = 1 ∧ Spec.ent m x w = 0 := by
    by_contra hno
    push Not at hno
    have h1 : ∑ t ∈ range v, Spec.ent m (v - 1) t ≤
        ∑ t ∈ range v, (Spec.ent m x t * Spec.ent m (v - 1) t + if t = x then 1 else 0) := by
      refine Finset.sum_le_sum (fun t ht => ?_)
      by_cases e : t = x
      · subst e
        rw [hzx, if_pos rfl, out_diag h ho hm hx]
        norm_num
      · rw [if_neg e]
        rcases hb (v - 1) t with e1 | e1
        · rw [e1]; norm_num
        · rcases hb x t with e2 | e2
          · exact (hno t (mem_range.1 ht) e e1 e2).elim
          · rw [e1, e2]; norm_num
    rw [Finset.sum_add_distrib, hxm, hsum, Finset.sum_ite_eq', if_pos (mem_range.2 hx)] at h1
    omega
  obtain ⟨hwv, hwz, hwm⟩ := last_nbr h ho hm hw hzw
  have hle := meet_le h ho hm hx hw (Ne.symm hwx)
  rw [hxw, if_neg (by norm_num)] at hle
  have hwx' : Spec.ent m w x = 0 := by rw [out_sym h ho hm hw hx]; exact hxw
  have key : ∑ t ∈ range v, (Spec.ent m x t * Spec.ent m (v - 1) t + Spec.ent m w t * Spec.ent m (v - 1) t -
      Spec.ent m (v - 1) t + ((if t = x then 1 else 0) + (if t = w then 1 else 0) +
        (if t = v - 1 then 1 else 0))) ≤ ∑ t ∈ range v, Spec.ent m x t * Spec.ent m w t := by
    refine Finset.sum_le_sum (fun t ht => ?_)
    by_cases e1 : t = x
    · subst e1
      rw [if_pos rfl, if_neg (Ne.symm hwx), if_neg (by omega), out_diag h ho hm hx, hwx', hzx]
      norm_num
    by_cases e2 : t = w
    · subst e2
      rw [if_neg e1, if_pos rfl, if_neg (by omega), out_diag h ho hm hw, hxw, hzw]
      norm_num
    by_cases e3 : t = v - 1
    · subst e3
      rw [if_neg e1, if_neg e2, if_pos rfl, out_diag h ho hm (by omega), hxz, hwz]
      norm_num
    rw [if_neg e1, if_neg e2, if_neg e3]
    rcases hb x t with f1 | f1 <;> rcases hb w t with f2 | f2 <;> rcases hb (v - 1) t with f3 | f3 <;>
      rw [f1, f2, f3] <;> norm_num
  simp only [Finset.sum_add_distrib, Finset.sum_sub_distrib, hxm, hwm, hsum, Finset.sum_ite_eq',
    mem_range, if_pos hx, if_pos hw, if_pos (show v - 1 < v by omega)] at key
  omega

/-- The neighbours of the last vertex as a set, with the number of neighbours inside. -/
theorem last_inside : ∃ N : Finset Nat, N ⊆ range v ∧ (∀ t < v, (t ∈ N ↔ Spec.ent m (v - 1) t = 1)) ∧
    (N.card : Int) = k ∧ ∀ x ∈ N, ∑ t ∈ N, Spec.ent m x t = l := by
  have hb := out_bin h ho hm
  have hres : ∀ f : Nat → Int, ∑ t ∈ (range v).filter (fun t => Spec.ent m (v - 1) t = 1), f t =
      ∑ t ∈ range v, f t * Spec.ent m (v - 1) t := by
    intro f
    rw [Finset.sum_filter]
    refine Finset.sum_congr rfl (fun t _ => ?_)
    rcases hb (v - 1) t with e | e <;> rw [e] <;> simp
  refine ⟨(range v).filter (fun t => Spec.ent m (v - 1) t = 1), filter_subset _ _, fun t ht => ?_, ?_, ?_⟩
  · simp only [mem_filter, mem_range, ht, true_and]
  · have h1 := hres (fun _ => 1)
    rw [Finset.sum_const, nsmul_eq_mul, mul_one] at h1
    rw [h1, ← last_sum h ho hm]
    simp
  · intro x hx
    obtain ⟨hx, hzx⟩ := mem_filter.1 hx
    rw [hres]
    exact (last_nbr h ho hm (mem_range.1 hx) hzx).2.2

omit hm in
/-- **C77.**  If `k` and `l` are both odd nothing is returned. -/
theorem C77_odd (hk : ¬ 2 ∣ k) (hl : ¬ 2 ∣ l) : out = [] := by
  rw [List.eq_nil_iff_forall_not_mem]
  intro m hm
  obtain ⟨N, hN, -, hc, hs⟩ := last_inside h ho hm
  have h1 := even_sum_sym N (fun i j => Spec.ent m i j)
    (fun i hi j hj => out_sym h ho hm (mem_range.1 (hN hi)) (mem_range.1 (hN hj)))
    (fun i hi => out_diag h ho hm (mem_range.1 (hN hi)))
  rw [Finset.sum_congr rfl hs, Finset.sum_const, nsmul_eq_mul, hc] at h1
  have h2 := Int.mul_emod k l 2
  rw [show k % 2 = 1 by omega, show l % 2 = 1 by omega] at h2
  omega

omit hm in
/-- **C77.**  If `u = 1` and `l + 1` does not divide `k` nothing is returned. -/
theorem C77_one (hu : u = 1) (hd : ¬ (l + 1) ∣ k) : out = [] := by
  classical
  rw [List.eq_nil_iff_forall_not_mem]
  intro m hm
  have hv3 := h.v3
  have hl0 := h.l0
  have hb := out_bin h ho hm
  obtain ⟨N, hN, hNz, hc, hs⟩ := last_inside h ho hm
  have hlt : ∀ t ∈ N, t < v - 1 := fun t ht =>
    (last_nbr h ho hm (mem_range.1 (hN ht)) ((hNz t (mem_range.1 (hN ht))).1 ht)).1
  have htr : ∀ x ∈ N, ∀ y ∈ N, ∀ c ∈ N, x ≠ c → Spec.ent m x y = 1 → Spec.ent m y c = 1 → Spec.ent m x c = 1 := by
    intro x hx y hy c hc' hxc hxy hyc
    by_contra hne
    have hx' := mem_range.1 (hN hx)
    have hy' := mem_range.1 (hN hy)
    have hc' := mem_range.1 (hN ‹c ∈ N›)
    have h1 := meet_le h ho hm hx' hc' hxc
    rw [if_neg hne, hu] at h1
    have h2 : ∑ t ∈ ({y, v - 1} : Finset Nat), Spec.ent m x t * Spec.ent m c t ≤
        ∑ t ∈ range v, Spec.ent m x t * Spec.ent m c t := by
      refine Finset.sum_le_sum_of_subset_of_nonneg ?_ (fun t _ _ => ?_)
      · intro t ht
        rcases mem_insert.1 ht with rfl | ht
        · exact mem_range.2 hy'
        · rw [mem_singleton.1 ht]
          exact mem_range.2 (by omega)
      · rcases hb x t with e | e <;> rcases hb c t with e' | e' <;> rw [e, e'] <;> norm_num
    have hyv := hlt y hy
    rw [Finset.sum_pair (by omega), hxy, out_sym h ho hm hc' hy', hyc,
      (last_nbr h ho hm hx' ((hNz x hx').1 hx)).2.1,
      (last_nbr h ho hm hc' ((hNz c hc').1 ‹c ∈ N›)).2.1] at h2
    omega
  -- number the neighbours
  obtain ⟨e⟩ : Nonempty (Fin N.card ≃ N) := ⟨(N.equivFin).symm⟩
  let g : Nat → Nat := fun i => if hi : i < N.card then (e ⟨i, hi⟩ : Nat) else 0
  have hg : ∀ i < N.card, g i ∈ N := by
    intro i hi
    simp only [g, dif_pos hi]
    exact (e ⟨i, hi⟩).2
  have hinj : ∀ i < N.card, ∀ j < N.card, g i = g j → i = j := by
    intro i hi j hj hij
    simp only [g, dif_pos hi, dif_pos hj] at hij
    have := e.injective (Subtype.ext hij)
    exact Fin.mk.inj_iff.1 this
  have himg : N = (range N.card).image g := by
    symm
    refine Finset.eq_of_subset_of_card_le (fun t ht => ?_) ?_
    · obtain ⟨i, hi, rfl⟩ := mem_image.1 ht
      exact hg i (mem_range.1 hi)
    · rw [Finset.card_image_of_injOn, card_range]
      intro i hi j hj hij
      exact hinj i (mem_range.1 (mem_coe.1 hi)) j (mem_range.1 (mem_coe.1 hj)) hij
  have hB : Blocks N.card (l + 1).toNat (fun i j => i = j ∨ Spec.ent m (g i) (g j) = 1) := by
    refine ⟨fun i _ => Or.inl rfl, fun i hi j hj hij => ?_, fun i hi j hj c hc' h1 h2 => ?_, ?_⟩
    · rcases hij with rfl | hij
      · exact Or.inl rfl
      · refine Or.inr ?_
        rw [out_sym h ho hm (mem_range.1 (hN (hg j hj))) (mem_range.1 (hN (hg i hi)))]
        exact hij
    · by_cases hic : i = c
      · exact Or.inl hic
      rcases h1 with rfl | h1
      · exact h2
      rcases h2 with rfl | h2
      · exact Or.inr h1
      exact Or.inr (htr _ (hg i hi) _ (hg j hj) _ (hg c hc') (fun e => hic (hinj i hi c hc' e)) h1 h2)
    · intro i hi _
      have h1 := hs (g i) (hg i hi)
      rw [himg, Finset.sum_image (fun a ha b hb hab =>
        hinj a (mem_range.1 (mem_coe.1 ha)) b (mem_range.1 (mem_coe.1 hb)) hab)] at h1
      have h2 : (((range N.card).filter (fun j => i = j ∨ Spec.ent m (g i) (g j) = 1)).card : Int) =
          ∑ j ∈ range N.card, (Spec.ent m (g i) (g j) + if j = i then 1 else 0) := by
        rw [Finset.card_filter]
        push_cast
        refine Finset.sum_congr rfl (fun j hj => ?_)
        by_cases e : j = i
        · subst e
          rw [if_pos (Or.inl rfl), if_pos rfl, out_diag h ho hm (mem_range.1 (hN (hg j hi)))]
          norm_num
        · rw [if_neg e]
          rcases hb (g i) (g j) with f | f
          · rw [if_neg, f]
            · norm_num
            · rintro (e' | e')
              · exact e e'.symm
              · omega
          · rw [if_pos (Or.inr f), f]
            norm_num
      rw [Finset.sum_add_distrib, h1, Finset.sum_ite_eq', if_pos (mem_range.2 hi)] at h2
      convert (show ((range N.card).filter (fun j => i = j ∨ Spec.ent m (g i) (g j) = 1)).card =
        (l + 1).toNat by omega)
  have h1 := hB.dvd
  apply hd
  rw [← hc]
  have h2 : ((l + 1).toNat : Int) = l + 1 := Int.toNat_of_nonneg (by omega)
  rw [← h2]
  exact_mod_cast h1

end

/-- The five conditions. -/
def void (v : Nat) (k l u : Int) : Bool :=
  (decide (k + 1 < v) && decide ((v : Int) < 2 * k - u + 2)) || (decide (u < k) && decide (k + l < 2 * u)) || (decide (l + 1 < k) && decide (k + u < 2 * l + 3)) ||
    (k % 2 == 1 && l % 2 == 1) || (u == 1 && k % (l + 1) != 0)

/-- **C77.**  The five conditions together. -/
theorem C77_void {v : Nat} {k l u : Int} (h : Good v k l u) {out : List Mat} (ho : IsOutput v k l u out)
    (hv : void v k l u = true) : out = [] := by
  have hl0 := h.l0
  simp only [void, Bool.or_eq_true, Bool.and_eq_true, decide_eq_true_eq, beq_iff_eq, bne_iff_ne] at hv
  rcases hv with (((⟨h1, h2⟩ | ⟨h1, h2⟩) | ⟨h1, h2⟩) | ⟨h1, h2⟩) | ⟨h1, h2⟩
  · exact C77_room h ho h1 h2
  · exact C77_close h ho h1 h2
  · exact C77_dense h ho h1 h2
  · exact C77_odd h ho (by omega) (by omega)
  · exact C77_one h ho h1 (fun hd => h2 (Int.emod_eq_zero_of_dvd hd))

/-- **C77.**  In terms of the whole program: called with such parameters it prints nothing, rightly so. -/
theorem C77_command {argv : List Str} {v k l u : Nat} (h : Good v k l u)
    (ha : argv.mapM parseInt = .ok [(v : Int), (k : Int), (l : Int), (u : Int)]) (hv : void v k l u = true) :
    main argv = .ok [] ∧ ∀ {V : Type} [Fintype V] [DecidableEq V] (G : SimpleGraph V) [DecidableRel G.Adj],
      ¬ G.IsSRGWith v k l u := by
  constructor
  · obtain ⟨out, ho⟩ := (C38_rejects ha (by have := h.v3; omega) (by have := h.v66; omega)).2 h.count
    obtain ⟨s, ans, h1, h2, hp, -, -⟩ := C38_output ha h.v3 h.v66 ho
    have : ans = [] := C77_void h ⟨s, h1, h2⟩ hv
    subst this
    rw [ho, List.perm_nil.1 hp]
  · intro V _ _ G _ hG
    have hlk := h.lk
    obtain ⟨s, out, h1, h2, m, hm, -⟩ := C01_complete G hG h.v3 h.v66 (Or.inl (by omega))
    rw [C77_void h ⟨s, h1, h2⟩ hv] at hm
    exact List.not_mem_nil hm

/-- Number of parameter sets with at most 30 vertices that pass the counting condition with `0 < u < k`, and
number of those to which the five conditions apply. -/
example : (let ps := (List.range 31).flatMap (fun v => (List.range v).flatMap (fun k =>
      (List.range k).filterMap (fun l =>
        let n := k * (k - l - 1)
        let w := v - k - 1
        if 0 < w ∧ n % w = 0 ∧ 0 < n / w ∧ n / w < k then some (v, k, l, n / w) else none)))
    (ps.length, (ps.filter (fun p => void p.1 p.2.1 p.2.2.1 p.2.2.2)).length)) = (272, 181) := by decide +kernel

/-- Non-vacuity: parameters that satisfy the counting condition, one for each of the five conditions. -/
example : (Good 66 40 19 32 ∧ (40 : Int) + 19 < 2 * 32) ∧ (Good 66 25 16 5 ∧ (25 : Int) + 5 < 2 * 16 + 3) ∧
    (Good 63 31 15 15 ∧ ¬ (2 : Int) ∣ 31 ∧ ¬ (2 : Int) ∣ 15) ∧ (Good 49 8 2 1 ∧ ¬ (2 + 1 : Int) ∣ 8) ∧
    (Good 13 9 6 6 ∧ (13 : Int) < 2 * 9 - 6 + 2) := by
  refine ⟨⟨⟨?_, ?_, ?_, ?_, ?_, ?_, ?_, ?_⟩, ?_⟩, ⟨⟨?_, ?_, ?_, ?_, ?_, ?_, ?_, ?_⟩, ?_⟩,
    ⟨⟨?_, ?_, ?_, ?_, ?_, ?_, ?_, ?_⟩, ?_, ?_⟩, ⟨⟨?_, ?_, ?_, ?_, ?_, ?_, ?_, ?_⟩, ?_⟩,
    ⟨⟨?_, ?_, ?_, ?_, ?_, ?_, ?_, ?_⟩, ?_⟩⟩ <;> decide

/-- The conditions do not hold for parameters with a graph: the pentagon, the 3 x 3 grid, the Petersen graph. -/
example : void 5 2 0 1 = false ∧ void 9 4 1 2 = false ∧ void 10 3 0 1 = false := by decide

end TDS
