import Verif.Props.Rows
import Verif.SpecQ

/-! The specification `Spec.Admits` against the invariant's notion of admissible assignment. -/

namespace TDS

theorem unknowns_cons (a y0 : Int) (v y : Vec) : Spec.unknowns (a :: v) (y0 :: y) =
    if a = -1 then y0 :: Spec.unknowns v y else Spec.unknowns v y := by
  unfold Spec.unknowns
  rw [List.zip_cons_cons, List.filter_cons]
  by_cases h : a = -1 <;> simp [h]

theorem unknowns_length {v y : Vec} (h : y.length = v.length) :
    (Spec.unknowns v y).length = unk v := by
  induction v generalizing y with
  | nil => simp [Spec.unknowns, unk]
  | cons a v ih =>
    obtain ⟨y0, y, rfl⟩ : ∃ y0 y', y = y0 :: y' := by cases y <;> simp at h ⊢
    rw [unknowns_cons]
    have := ih (y := y) (by simpa using h)
    unfold unk at this ⊢
    rw [List.countP_cons]
    by_cases ha : a = -1
    · subst ha; simp [UNKNOWN, this]
    · rw [if_neg ha, this]; simp [UNKNOWN, ha]

theorem fill_unknowns {v y : Vec} (h : y.length = v.length)
    (hk : ∀ i < y.length, v.getD i 0 ≠ -1 → y.getD i 0 = v.getD i 0) :
    fill v (Spec.unknowns v y) = y := by
  induction v generalizing y with
  | nil => cases y with
    | nil => rfl
    | cons => simp at h
  | cons a v ih =>
    obtain ⟨y0, y, rfl⟩ : ∃ y0 y', y = y0 :: y' := by cases y <;> simp at h ⊢
    have ih := ih (y := y) (by simpa using h)
      (fun i hi => hk (i + 1) (by simp; omega))
    rw [unknowns_cons]
    by_cases ha : a = -1
    · subst ha
      rw [if_pos rfl]
      unfold fill
      rw [if_pos rfl]
      change y0 :: fill v (Spec.unknowns v y) = _
      rw [ih]
    · rw [if_neg ha, fill_known ha, ih]
      have := hk 0 (by simp) (by simpa using ha)
      simp at this
      rw [this]

theorem unknowns_fill {v x : Vec} (h : x.length = unk v) :
    Spec.unknowns v (fill v x) = x := by
  induction v generalizing x with
  | nil => simp [unk] at h; subst h; rfl
  | cons a v ih =>
    by_cases ha : a = -1
    · subst ha
      have e : unk (-1 :: v) = unk v + 1 := by simp [unk, UNKNOWN]
      obtain ⟨x0, x, rfl⟩ : ∃ x0 x', x = x0 :: x' := by
        cases x
        · simp [e] at h
        · simp
      unfold fill
      rw [if_pos rfl, unknowns_cons, if_pos rfl, ih (by simp [e] at h; omega)]
    · have e : unk (a :: v) = unk v := by simp [unk, UNKNOWN, ha]
      rw [fill_known ha, unknowns_cons, if_neg ha, ih (by rw [h, e])]

theorem npDiff_getD (l : Vec) (i : Nat) (h : i + 1 < l.length) :
    (npDiff l).getD i 0 = l.getD (i + 1) 0 - l.getD i 0 := by
  induction l generalizing i with
  | nil => simp at h
  | cons a t ih =>
    cases t with
    | nil => simp at h
    | cons b t =>
      cases i with
      | zero => simp [npDiff]
      | succ i =>
        have := ih i (by simpa using h)
        simpa [npDiff] using this

theorem width_eq {W : Vec} {a : Answer} (h : Lay W a.loc a.len) {i : Nat} (hi : i < W.length) :
    Spec.bucketEnd a.loc a.len i - a.loc.getD i 0 = W.getD i 0 := by
  have hl := h.wlen
  rw [← h.diff, npDiff_getD _ _ (by simp; omega)]
  unfold Spec.bucketEnd
  congr 1
  rw [List.getD_eq_getElem _ _ (by omega), List.getD_eq_getElem _ _ (by simp; omega),
    List.getElem_append_left (by omega)]

/-- Under the invariant, `Admits` is `SolY`. -/
theorem admits_iff {W : Vec} {Q : Question} (h : Inv W Q) {y : Vec} :
    Spec.Admits Q y ↔ SolY W Q y := by
  constructor
  · intro ha
    have hlen : (Spec.unknowns Q.ans.v y).length = ncols Q.A := by rw [ha.count, h.blen]
    have hfill := fill_unknowns ha.len ha.known
    refine ⟨Spec.unknowns Q.ans.v y, ⟨hlen, ?_, ?_, ha.quota⟩, hfill.symm, ?_⟩
    · exact (solves_iff (fun r hr => by rw [h.sys.rect r hr, hlen]) h.sys.len.symm).1 ha.solves
    · refine Bounds.forall₂_of_getD 0 ha.count ?_
      intro j hj
      refine ⟨?_, ha.bound j (by rw [← ha.count]; exact hj)⟩
      have : (Spec.unknowns Q.ans.v y).getD j 0 ∈ Spec.unknowns Q.ans.v y := by
        rw [List.getD_eq_getElem _ _ hj]; exact List.getElem_mem _
      have hmem : (Spec.unknowns Q.ans.v y).getD j 0 ∈ y := by
        obtain ⟨p, hp, he⟩ := List.mem_map.1 this
        rw [← he]
        exact (List.of_mem_zip (List.mem_filter.1 hp).1).2
      obtain ⟨i, hi, he⟩ := List.getElem_of_mem hmem
      have := (ha.fits i hi).1
      rw [List.getD_eq_getElem _ _ hi, he] at this
      exact this
    · refine Bounds.forall₂_of_getD 0 (by rw [ha.len, h.vlen]) ?_
      intro i hi
      rw [← width_eq h.lay (by rw [← h.vlen, ← ha.len]; exact hi)]
      exact (ha.fits i hi).2
  · rintro ⟨x, hx, rfl, hW⟩
    have hlen : x.length = unk Q.ans.v := by rw [hx.len, h.unk]
    have hu := unknowns_fill hlen
    have hnn : ∀ i < (fill Q.ans.v x).length, 0 ≤ (fill Q.ans.v x).getD i 0 := by
      have key : ∀ (v x : Vec), x.length = unk v → (∀ a ∈ v, a = -1 ∨ 0 ≤ a) →
          (∀ a ∈ x, 0 ≤ a) → ∀ a ∈ fill v x, 0 ≤ a := by
        intro v
        induction v with
        | nil => intro x _ _ _ a ha; simp [fill] at ha
        | cons b v ih =>
          intro x hl hv hx a ha
          by_cases hb : b = -1
          · subst hb
            have e : unk (-1 :: v) = unk v + 1 := by simp [unk, UNKNOWN]
            obtain ⟨x0, x, rfl⟩ : ∃ x0 x', x = x0 :: x' := by
              cases x
              · simp [e] at hl
              · simp
            unfold fill at ha
            rw [if_pos rfl] at ha
            rcases List.mem_cons.1 ha with rfl | ha
            · exact hx _ (by simp)
            · exact ih x (by simp [e] at hl; omega) (fun a ha => hv a (by simp [ha]))
                (fun a ha => hx a (by simp [ha])) a ha
          · have e : unk (b :: v) = unk v := by simp [unk, UNKNOWN, hb]
            rw [fill_known hb] at ha
            rcases List.mem_cons.1 ha with rfl | ha
            · have := hv a (by simp); omega
            · exact ih x (by rw [hl, e]) (fun a ha => hv a (by simp [ha])) hx a ha
      intro i hi
      rw [List.getD_eq_getElem _ _ hi]
      exact key _ _ hlen h.vnn hx.nonneg _ (List.getElem_mem _)
    refine ⟨by simp, ?_, ?_, by rw [hu, hx.len, h.blen], ?_, ?_, by rw [hu]; exact hx.sum⟩
    · intro i _ hne
      exact fill_getD_known hne
    · intro i hi
      refine ⟨hnn i hi, ?_⟩
      rw [width_eq h.lay (by rw [← h.vlen]; simpa using hi)]
      exact Bounds.getD_of_forall₂ 0 hW hi
    · rw [hu, solves_iff (fun r hr => by rw [h.sys.rect r hr, hx.len]) h.sys.len.symm]
      exact hx.eq
    · intro j hj
      rw [hu]
      exact (Bounds.getD_of_forall₂ 0 hx.bd (by rw [hx.len, ← h.blen]; exact hj)).2

/-- An admissible assignment of the initial question is a 0/1 solution. -/
theorem admits_pre {Q : Question} (h : Pre Q) {z : Vec} : Spec.Admits Q z ↔ Sat01 Q z := by
  have hv : Q.ans.v = List.replicate (ncols Q.A) UNKNOWN := by rw [h.ans]
  have hun : ∀ z : Vec, z.length = ncols Q.A → Spec.unknowns Q.ans.v z = z := by
    intro z hz
    have := unknowns_fill (v := Q.ans.v) (x := z) (by rw [hv, unk_replicate, hz])
    rwa [hv, ← hz, fill_replicate, hz, ← hv] at this
  have hw : ∀ i < ncols Q.A, Spec.bucketEnd Q.ans.loc Q.ans.len i - Q.ans.loc.getD i 0 = 1 := by
    intro i hi
    rw [h.ans]
    unfold Spec.bucketEnd
    simp only
    rw [List.getD_eq_getElem _ _ (by simp; omega), List.getD_eq_getElem _ _ (by simp; omega)]
    by_cases hl : i + 1 < ncols Q.A
    · rw [List.getElem_append_left (by simpa using hl)]; simp
    · rw [List.getElem_append_right (by simp; omega)]; simp; omega
  constructor
  · intro ha
    have hlen : z.length = ncols Q.A := by rw [ha.len, hv, List.length_replicate]
    refine ⟨hlen, ?_, ?_⟩
    · intro a haz
      obtain ⟨i, hi, rfl⟩ := List.getElem_of_mem haz
      have := ha.fits i hi
      rw [hw i (by omega), List.getD_eq_getElem _ _ hi] at this
      omega
    · have := ha.solves
      rw [hun z hlen] at this
      exact (solves_iff (fun r hr => by rw [h.sys.rect r hr, hlen]) h.sys.len.symm).1 this
  · rintro ⟨hlen, hb, hs⟩
    refine ⟨by rw [hlen, hv, List.length_replicate], ?_, ?_, ?_, ?_, ?_, ?_⟩
    · intro i hi hne
      rw [hv, List.getD_eq_getElem _ _ (by simp; omega), List.getElem_replicate] at hne
      exact absurd rfl hne
    · intro i hi
      rw [hw i (by omega)]
      have := Bin.getD hb i
      omega
    · rw [hun z hlen, h.bounds, hlen, List.length_replicate]
    · rw [hun z hlen, solves_iff (fun r hr => by rw [h.sys.rect r hr, hlen]) h.sys.len.symm]
      exact hs
    · intro j hj
      rw [hun z hlen, h.bounds, List.getD_eq_getElem (List.replicate _ _) _ (by
        rw [h.bounds] at hj; exact hj), List.getElem_replicate]
      have := Bin.getD hb j
      omega
    · rw [hun z hlen]
      have := hs _ h.ones
      rw [dot_replicate_one _ _ hlen] at this
      exact this

/-! ### buckets of the merged question -/

theorem eq_of_inc {l l' : List Nat} (h : l.Pairwise (· < ·)) (h' : l'.Pairwise (· < ·))
    (hm : ∀ j, j ∈ l ↔ j ∈ l') : l = l' := by
  have hp : List.Perm l l' := (List.perm_ext_iff_of_nodup (h.imp (fun h => Nat.ne_of_lt h))
    (h'.imp (fun h => Nat.ne_of_lt h))).2 hm
  exact hp.eq_of_pairwise (fun a b _ _ h1 h2 => by omega) h h'

theorem bucketSum_counts {Q : Question} (h : Pre Q) (hc : AdjCols Q.A (ncols Q.A)) {z : Vec}
    (hz : z.length = ncols Q.A) :
    (List.range (merged Q).ans.loc.length).map
      (Spec.bucketSum (merged Q).ans.loc (merged Q).ans.len z) = counts Q z := by
  have hflat := flatten_eq_range h hc
  have hpw : (((grps Q).map Prod.snd).flatten).Pairwise (· < ·) := by
    rw [hflat]; exact List.pairwise_lt_range
  rw [List.pairwise_flatten] at hpw
  have hord : ∀ i k (hi : i < (grps Q).length) (hk : k < (grps Q).length), i < k →
      ∀ a ∈ (grps Q)[i].2, ∀ b ∈ (grps Q)[k].2, a < b := by
    intro i k hi hk hik
    have := List.pairwise_iff_getElem.1 hpw.2 i k (by simpa using hi) (by simpa using hk) hik
    simpa using this
  have hlen : (merged Q).ans.loc.length = (grps Q).length := by
    simp [merged, firsts_length]
  have hloc : ∀ i (hi : i < (grps Q).length),
      (merged Q).ans.loc.getD i 0 = (((grps Q)[i].2.headD 0 : Nat) : Int) := by
    intro i hi
    rw [List.getD_eq_getElem _ _ (by rw [hlen]; exact hi)]
    simp [merged, firsts]
  have hend : ∀ i, i < (grps Q).length →
      Spec.bucketEnd (merged Q).ans.loc (merged Q).ans.len i =
        if hi : i + 1 < (grps Q).length then (((grps Q)[i + 1].2.headD 0 : Nat) : Int)
        else ncols Q.A := by
    intro i hi
    unfold Spec.bucketEnd
    split
    · next h1 =>
      rw [← hloc (i + 1) h1, List.getD_eq_getElem _ _ (by rw [List.length_append, hlen]; simp; omega),
        List.getD_eq_getElem _ _ (by rw [hlen]; exact h1), List.getElem_append_left]
    · next h1 =>
      rw [List.getD_eq_getElem _ _ (by rw [List.length_append, hlen]; simp; omega),
        List.getElem_append_right (by rw [hlen]; omega)]
      simp [merged]
  unfold counts
  apply List.ext_getElem
  · rw [List.length_map, List.length_range, List.length_map, hlen]
  · intro i h1 h2
    have hi : i < (grps Q).length := by simpa using h2
    rw [List.getElem_map, List.getElem_range, List.getElem_map]
    unfold Spec.bucketSum
    congr 2
    have hg := grps_ok Q
    have hmem := List.getElem_mem hi
    apply eq_of_inc (List.Pairwise.filter _ List.pairwise_lt_range) (hg.inc _ hmem)
    intro j
    rw [List.mem_filter, List.mem_range, hz, hloc i hi, hend i hi]
    simp only [Bool.and_eq_true, decide_eq_true_eq]
    constructor
    · rintro ⟨hj, hlo, hup⟩
      obtain ⟨g, hgm, -, hjg⟩ := hg.exists_group (j := j) (by rw [codes_length]; exact hj)
      obtain ⟨k, hk, rfl⟩ := List.getElem_of_mem hgm
      rcases Nat.lt_trichotomy k i with hlt | heq | hgt
      · have := hord k i hk hi hlt j hjg _ (hg.head_mem hmem)
        omega
      · subst heq; exact hjg
      · exfalso
        have hi1 : i + 1 < (grps Q).length := by omega
        rw [dif_pos hi1] at hup
        have h3 : (grps Q)[i + 1].2.headD 0 ≤ j := by
          rcases Nat.lt_or_eq_of_le (show i + 1 ≤ k by omega) with h4 | h4
          · exact (hord (i + 1) k hi1 hk h4 _ (hg.head_mem (List.getElem_mem _)) j hjg).le
          · subst h4; exact hg.head_le (List.getElem_mem _) hjg
        omega
    · intro hjg
      have hjn : j < ncols Q.A := by
        have := (hg.locs _ hmem j).1 hjg
        rw [codes_length] at this; exact this.1
      refine ⟨hjn, ?_, ?_⟩
      · have := hg.head_le hmem hjg; omega
      · split
        · next hi1 =>
          have := hord i (i + 1) hi hi1 (by omega) j hjg _ (hg.head_mem (List.getElem_mem _))
          omega
        · omega

end TDS
