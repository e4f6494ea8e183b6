import Verif.Proof.Merge

/-! Rows against group counts, when equal columns are adjacent. -/

namespace TDS

/-! ### sums over groups -/

theorem dot_eq_sum {r x : Vec} {n : Nat} (hr : r.length = n) (hx : x.length = n) :
    dot r x = ((List.range n).map (fun j => r.getD j 0 * x.getD j 0)).sum := by
  unfold dot
  congr 1
  apply List.ext_getElem
  · simp [hr, hx]
  · intro i h1 h2
    simp at h1 h2
    simp [List.getElem_zipWith, List.getD_eq_getElem?_getD, h1.1, h1.2]

theorem dot_maps {α : Type} (l : List α) (f g : α → Int) :
    dot (l.map f) (l.map g) = (l.map (fun a => f a * g a)).sum := by
  induction l with
  | nil => rfl
  | cons a l ih => simp only [List.map_cons, dot_cons, ih, List.sum_cons]

theorem sum_flatten_map {α : Type} (L : List (List α)) (f : α → Int) :
    (L.flatten.map f).sum = (L.map (fun l => (l.map f).sum)).sum := by
  induction L with
  | nil => rfl
  | cons l L ih => rw [List.flatten_cons, List.map_append, List.sum_append, ih]; rfl

theorem sum_map_mul_left' {α : Type} (l : List α) (f : α → Int) (c : Int) :
    (l.map (fun a => c * f a)).sum = c * (l.map f).sum := by
  induction l with
  | nil => simp
  | cons a l ih => simp only [List.map_cons, List.sum_cons, ih]; ring

/-- Ones of `x` in each group of equal columns. -/
def counts (Q : Question) (x : Vec) : Vec :=
  (grps Q).map (fun g => (g.2.map (fun j => x.getD j 0)).sum)

theorem grp_col {Q : Question} (h : Pre Q) {g : Int × List Nat} (hg : g ∈ grps Q) {j : Nat}
    (hj : j ∈ g.2) {r : Vec} (hr : r ∈ Q.A) : r.getD j 0 = r.getD (g.2.headD 0) 0 := by
  have hok := grps_ok Q
  have h1 := (hok.locs g hg j).1 hj
  have h2 := (hok.locs g hg _).1 (hok.head_mem hg)
  rw [codes_length] at h1 h2
  exact col_eq_iff.1 ((codes_inj h h1.1 h2.1).1 (h1.2.trans h2.2.symm)) r hr

theorem dot_counts {Q : Question} (h : Pre Q) {x : Vec} (hx : x.length = ncols Q.A) {r : Vec}
    (hr : r ∈ Q.A) : dot ((firsts Q).map (fun j => r.getD j 0)) (counts Q x) = dot r x := by
  rw [dot_eq_sum (h.sys.rect r hr) hx]
  have hp := (grps_ok Q).flatten_perm
  rw [codes_length] at hp
  rw [← (hp.map (fun j => r.getD j 0 * x.getD j 0)).sum_eq, sum_flatten_map]
  unfold counts firsts
  rw [List.map_map, dot_maps, List.map_map]
  congr 1
  apply List.map_congr_left
  intro g hg
  simp only [Function.comp]
  rw [← sum_map_mul_left']
  congr 1
  apply List.map_congr_left
  intro j hj
  rw [grp_col h hg hj hr]

theorem counts_sum {Q : Question} {x : Vec} (hx : x.length = ncols Q.A) :
    (counts Q x).sum = x.sum := by
  have hp := (grps_ok Q).flatten_perm
  rw [codes_length] at hp
  have := (hp.map (fun j => x.getD j 0)).sum_eq
  rw [map_getD_range hx, sum_flatten_map, List.map_map] at this
  exact this

theorem bin_sum_le {z : Vec} (h : Bin z) : 0 ≤ z.sum ∧ z.sum ≤ z.length := by
  induction z with
  | nil => simp
  | cons a z ih =>
    have h1 := ih (fun b hb => h b (by simp [hb]))
    have h2 := h a (by simp)
    simp only [List.sum_cons, List.length_cons]
    push_cast
    omega

theorem counts_bd {Q : Question} {x : Vec} (hb : Bin x) :
    List.Forall₂ (fun a b => 0 ≤ a ∧ a ≤ b) (counts Q x) (merged Q).bounds := by
  show List.Forall₂ _ (List.map _ _) (List.map _ _)
  rw [List.forall₂_map_left_iff, List.forall₂_map_right_iff, List.forall₂_same]
  intro g _
  have := bin_sum_le (z := g.2.map (fun j => x.getD j 0)) (by
    intro a ha
    obtain ⟨j, -, rfl⟩ := List.mem_map.1 ha
    exact hb.getD j)
  simpa using this

/-- The equations of the initial question, on 0/1 rows. -/
def Sat01 (Q : Question) (x : Vec) : Prop :=
  x.length = ncols Q.A ∧ Bin x ∧ ∀ p ∈ Q.A.zip Q.b, dot p.1 x = p.2

theorem counts_sol {Q : Question} (h : Pre Q) {x : Vec} (hx : Sat01 Q x) :
    Sol (merged Q) (counts Q x) := by
  obtain ⟨hl, hb, he⟩ := hx
  refine ⟨?_, ?_, counts_bd hb, ?_⟩
  · rw [merged_ncols h, firsts_length]; simp [counts]
  · intro p hp
    change p ∈ (Q.A.map _).zip Q.b at hp
    rw [List.zip_map_left] at hp
    obtain ⟨p', hp', rfl⟩ := List.mem_map.1 hp
    simp only [Prod.map]
    rw [dot_counts h hl (List.of_mem_zip hp').1]
    exact he p' hp'
  · rw [counts_sum hl]
    have := he _ h.ones
    rw [dot_replicate_one _ _ hl] at this
    exact this

theorem merged_fill {Q : Question} (h : Pre Q) {y : Vec} (hy : y.length = ncols (merged Q).A) :
    fill (merged Q).ans.v y = y := by
  rw [merged_ncols h] at hy
  show fill (List.replicate (firsts Q).length UNKNOWN) y = y
  rw [← hy]
  exact fill_replicate y

/-! ### adjacent groups -/

/-- Equal columns are adjacent. -/
def AdjCols (A : Mat) (n : Nat) : Prop :=
  ∀ i j k, i < j → j < k → k < n → col A i = col A k → col A i = col A j

theorem flatten_eq_range {Q : Question} (h : Pre Q) (hc : AdjCols Q.A (ncols Q.A)) :
    ((grps Q).map Prod.snd).flatten = List.range (ncols Q.A) := by
  have hok := grps_ok Q
  have hp := hok.flatten_perm
  rw [codes_length] at hp
  refine hp.eq_of_pairwise (fun a b _ _ h1 h2 => absurd h1 (Nat.lt_asymm h2)) ?_
    List.pairwise_lt_range
  rw [List.pairwise_flatten]
  refine ⟨?_, ?_⟩
  · intro l hl
    obtain ⟨g, hg, rfl⟩ := List.mem_map.1 hl
    exact hok.inc g hg
  · rw [List.pairwise_map]
    have hh := hok.heads
    rw [List.pairwise_map] at hh
    refine List.Pairwise.imp_of_mem ?_ hh
    intro g g' hg hg' hlt j hj j' hj'
    by_contra hcon
    have hne : g ≠ g' := by rintro rfl; omega
    have hjj : j ≠ j' := by rintro rfl; exact hne (hok.group_unique hg hg' hj hj')
    have h1 := (hok.locs g hg j).1 hj
    have h2 := (hok.locs g hg _).1 (hok.head_mem hg)
    have h3 := (hok.locs g' hg' j').1 hj'
    rw [codes_length] at h1 h2 h3
    have h4 := hok.head_le hg' hj'
    have hcol := hc (g.2.headD 0) j' j (by omega) (by omega) h1.1
      ((codes_inj h h2.1 h1.1).1 (h2.2.trans h1.2.symm))
    rw [← codes_inj h h2.1 h3.1, h2.2, h3.2] at hcol
    exact hne (hok.eq_of_key hg hg' hcol)

theorem npDiff_flatten : ∀ (L : List (List Nat)) (s n : Nat), (∀ l ∈ L, l ≠ []) →
    L.flatten = List.range' s n →
    npDiff (L.map (fun l => ((l.headD 0 : Nat) : Int)) ++ [((s + n : Nat) : Int)]) =
      L.map (fun l => (l.length : Int)) := by
  intro L
  induction L with
  | nil => intro s n _ _; rfl
  | cons l L ih =>
    intro s n hne he
    rw [List.flatten_cons] at he
    obtain ⟨k, hk, e1, e2⟩ := List.range'_eq_append_iff.1 he.symm
    rw [Nat.mul_one] at e2
    have hl : l.length = k := by rw [e1]; simp
    have hlne := hne l (by simp)
    have hhead : l.headD 0 = s := by
      cases k with
      | zero => rw [e1] at hlne; simp at hlne
      | succ k => rw [e1, List.range'_succ]; rfl
    have hrec := ih (s + k) (n - k) (fun l hl => hne l (by simp [hl])) e2
    have hsn : s + k + (n - k) = s + n := by omega
    rw [hsn] at hrec
    rw [List.map_cons, List.cons_append, hhead, List.map_cons, ← hrec, hl]
    cases L with
    | nil =>
      simp only [List.flatten_nil] at e2
      have : n - k = 0 := by
        have := congrArg List.length e2; simp at this; omega
      simp only [List.map_nil, List.nil_append, npDiff]
      congr 1
      omega
    | cons l' L =>
      have hl'ne := hne l' (by simp)
      have hhead' : l'.headD 0 = s + k := by
        rw [List.flatten_cons] at e2
        obtain ⟨k', hk', e1', -⟩ := List.range'_eq_append_iff.1 e2.symm
        cases k' with
        | zero => rw [e1'] at hl'ne; simp at hl'ne
        | succ k' => rw [e1', List.range'_succ]; rfl
      simp only [List.map_cons, List.cons_append]
      rw [npDiff_cons_append, hhead']
      congr 1
      omega

theorem widths_eq {Q : Question} (h : Pre Q) (hc : AdjCols Q.A (ncols Q.A)) :
    widths Q = (grps Q).map (fun g => (g.2.length : Int)) := by
  have := npDiff_flatten ((grps Q).map Prod.snd) 0 (ncols Q.A) (by
    intro l hl
    obtain ⟨g, hg, rfl⟩ := List.mem_map.1 hl
    exact (grps_ok Q).ne g hg) (by rw [flatten_eq_range h hc, List.range_eq_range'])
  rw [List.map_map, List.map_map, Nat.zero_add] at this
  unfold widths firsts
  rw [List.map_map]
  exact this

/-- A 0/1 list whose ones come first. -/
theorem ones_first {z : Vec} (hb : Bin z) (hd : z.Pairwise (fun a b => b ≤ a)) :
    z = List.replicate z.sum.toNat 1 ++ List.replicate (z.length - z.sum).toNat 0 := by
  induction z with
  | nil => rfl
  | cons a z ih =>
    rw [List.pairwise_cons] at hd
    have hbz : Bin z := fun b hb' => hb b (by simp [hb'])
    have hs := bin_sum_le hbz
    have hrec := ih hbz hd.2
    rcases hb a (by simp) with rfl | rfl
    · have h0 : z.sum = 0 := by
        have : ∀ b ∈ z, b = 0 := by
          intro b hb'
          have := hd.1 b hb'
          rcases hbz b hb' with h | h <;> omega
        rw [List.eq_replicate_of_mem this, sum_replicate_int]; simp
      rw [h0] at hrec
      simp only [List.sum_cons, List.length_cons, h0]
      simp only [Int.toNat_zero, List.replicate_zero, List.nil_append, sub_zero,
        Int.toNat_natCast, add_zero] at hrec ⊢
      rw [hrec]
      simp [List.replicate_succ]
    · have e1 : (1 + z.sum).toNat = z.sum.toNat + 1 := by omega
      have e2 : (((z.length + 1 : Nat) : Int) - (1 + z.sum)).toNat = (z.length - z.sum).toNat := by
        omega
      rw [List.sum_cons, List.length_cons, e1, e2, List.replicate_succ, List.cons_append, ← hrec]

theorem binz_maps {α : Type} (L : List α) (w y : α → Int) :
    binz (L.map w) (L.map y) = (L.map (fun l =>
      List.replicate (y l).toNat (1 : Int) ++ List.replicate (w l - y l).toNat 0)).flatten := by
  induction L with
  | nil => rfl
  | cons a L ih => simp only [List.map_cons, binz_cons, ih, List.flatten_cons]

/-- `x` is left-justified in every class of equal columns. -/
def LJ (A : Mat) (n : Nat) (x : Vec) : Prop :=
  ∀ i j, i < j → j < n → col A i = col A j → x.getD j 0 ≤ x.getD i 0

theorem pieces {Q : Question} (h : Pre Q) (hc : AdjCols Q.A (ncols Q.A)) {x : Vec}
    (hx : x.length = ncols Q.A) :
    x = ((grps Q).map (fun g => g.2.map (fun j => x.getD j 0))).flatten := by
  have h1 := flatten_eq_range h hc
  have h2 := map_getD_range hx
  rw [← h1, List.map_flatten, List.map_map] at h2
  exact h2.symm

theorem grp_pairwise {Q : Question} (h : Pre Q) {g : Int × List Nat} (hg : g ∈ grps Q) :
    g.2.Pairwise (fun i j => i < j ∧ j < ncols Q.A ∧ col Q.A i = col Q.A j) := by
  have hok := grps_ok Q
  refine List.Pairwise.imp_of_mem ?_ (hok.inc g hg)
  intro i j hi hj hij
  have h1 := (hok.locs g hg i).1 hi
  have h2 := (hok.locs g hg j).1 hj
  rw [codes_length] at h1 h2
  exact ⟨hij, h2.1, (codes_inj h h1.1 h2.1).1 (h1.2.trans h2.2.symm)⟩

/-- A left-justified row is determined by its counts. -/
theorem binz_counts {Q : Question} (h : Pre Q) (hc : AdjCols Q.A (ncols Q.A)) {x : Vec}
    (hx : x.length = ncols Q.A) (hb : Bin x) (hlj : LJ Q.A (ncols Q.A) x) :
    binz (widths Q) (counts Q x) = x := by
  conv_rhs => rw [pieces h hc hx]
  rw [widths_eq h hc]
  unfold counts
  rw [binz_maps]
  congr 1
  apply List.map_congr_left
  intro g hg
  have := ones_first (z := g.2.map (fun j => x.getD j 0)) (by
    intro a ha
    obtain ⟨j, -, rfl⟩ := List.mem_map.1 ha
    exact hb.getD j) (by
    rw [List.pairwise_map]
    exact List.Pairwise.imp (fun hij => hlj _ _ hij.1 hij.2.1 hij.2.2) (grp_pairwise h hg))
  rw [List.length_map] at this
  exact this.symm

theorem exists_map_of_length {α : Type} [DecidableEq α] {L : List α} (hnd : L.Nodup) {y : Vec}
    (hy : y.length = L.length) : ∃ f : α → Int, y = L.map f := by
  refine ⟨fun a => y.getD (L.idxOf a) 0, ?_⟩
  apply List.ext_getElem
  · simp [hy]
  · intro i h1 h2
    simp at h2
    simp [List.getD_eq_getElem?_getD, hnd.idxOf_getElem, h1]

/-- Rows written from counts. -/
theorem binz_spec {Q : Question} (h : Pre Q) (hc : AdjCols Q.A (ncols Q.A)) {y : Vec}
    (hw : Within y (widths Q)) :
    (binz (widths Q) y).length = ncols Q.A ∧ Bin (binz (widths Q) y) ∧
      LJ Q.A (ncols Q.A) (binz (widths Q) y) ∧ counts Q (binz (widths Q) y) = y := by
  have hlen : (binz (widths Q) y).length = ncols Q.A := by
    have h1 := binz_length hw
    have h2 := (merged_lay Q).sum
    rw [h2] at h1
    exact Int.ofNat.inj h1
  have hbin := binz_bin hw
  have hok := grps_ok Q
  have hnd : (grps Q).Nodup := List.Nodup.of_map _ hok.keys
  have hyl : y.length = (grps Q).length := by
    rw [hw.length_eq, widths_eq h hc, List.length_map]
  obtain ⟨f, rfl⟩ := exists_map_of_length hnd hyl
  have hW := widths_eq h hc
  have hf : ∀ g ∈ grps Q, 0 ≤ f g ∧ f g ≤ g.2.length := by
    rw [hW, Within, List.forall₂_map_left_iff, List.forall₂_map_right_iff,
      List.forall₂_same] at hw
    exact hw
  set x := binz (widths Q) ((grps Q).map f) with hx
  have e1 := pieces h hc hlen
  have e2 : x = ((grps Q).map (fun g => List.replicate (f g).toNat (1 : Int) ++
      List.replicate ((g.2.length : Int) - f g).toNat 0)).flatten := by
    rw [hx, hW, binz_maps]
  have e3 : (grps Q).map (fun g => g.2.map (fun j => x.getD j 0)) =
      (grps Q).map (fun g => List.replicate (f g).toNat (1 : Int) ++
        List.replicate ((g.2.length : Int) - f g).toNat 0) := by
    rw [List.eq_iff_flatten_eq]
    refine ⟨by rw [← e1, ← e2], ?_⟩
    rw [List.map_map, List.map_map]
    apply List.map_congr_left
    intro g hg
    have := hf g hg
    simp only [Function.comp, List.length_map, List.length_append, List.length_replicate]
    omega
  rw [List.map_inj_left] at e3
  refine ⟨hlen, hbin, ?_, ?_⟩
  · intro i j hij hj hcol
    have hi : i < ncols Q.A := by omega
    obtain ⟨g, hg, hk, hig⟩ := hok.exists_group (j := i) (by rw [codes_length]; exact hi)
    have hjg : j ∈ g.2 := by
      rw [hok.locs g hg, codes_length]
      refine ⟨hj, ?_⟩
      rw [hk]
      exact ((codes_inj h hi hj).2 hcol).symm
    have hpw : (g.2.map (fun j => x.getD j 0)).Pairwise (fun a b => b ≤ a) := by
      rw [e3 g hg, List.pairwise_append]
      refine ⟨?_, ?_, ?_⟩
      · exact List.pairwise_replicate.2 (Or.inr (Int.le_refl _))
      · exact List.pairwise_replicate.2 (Or.inr (Int.le_refl _))
      · intro a ha b hb
        rw [(List.mem_replicate.1 ha).2, (List.mem_replicate.1 hb).2]
        decide
    rw [List.pairwise_map] at hpw
    obtain ⟨p, hp, e⟩ := List.getElem_of_mem hig
    obtain ⟨q, hq, e'⟩ := List.getElem_of_mem hjg
    have hinc := List.pairwise_iff_getElem.1 (hok.inc g hg)
    have hpq : p < q := by
      rcases Nat.lt_trichotomy p q with h1 | h1 | h1
      · exact h1
      · subst h1; omega
      · have := hinc q p hq hp h1
        omega
    have := List.pairwise_iff_getElem.1 hpw p q hp hq hpq
    rwa [e, e'] at this
  · unfold counts
    apply List.map_congr_left
    intro g hg
    have := hf g hg
    rw [e3 g hg, List.sum_append, sum_replicate_int, sum_replicate_int]
    omega

/-! ### the search on a question with adjacent equal columns -/

/-- Rows satisfying the equations as inequalities. -/
def Sub01 (Q : Question) (x : Vec) : Prop :=
  x.length = ncols Q.A ∧ Bin x ∧ ∀ p ∈ Q.A.zip Q.b, dot p.1 x ≤ p.2

/-- Result of the search, in terms of rows. -/
theorem solveQuestion_rows {Q : Question} (h : Pre Q) (hc : AdjCols Q.A (ncols Q.A)) :
    ∃ rows, solveQuestion Q = .ok rows ∧ rows.Nodup ∧
      (∀ x ∈ rows, Sub01 Q x ∧ LJ Q.A (ncols Q.A) x) ∧
      (∀ x, Sat01 Q x → LJ Q.A (ncols Q.A) x → x ∈ rows) := by
  obtain ⟨ys, h1, h2, h3, h4⟩ := solveQuestion_pre h
  refine ⟨_, h1, ?_, ?_, ?_⟩
  · refine List.Nodup.map_on ?_ h2
    intro a ha b hb e
    exact binz_injective (h3 a ha).2 (h3 b hb).2 e
  · intro x hx
    obtain ⟨y, hy, rfl⟩ := List.mem_map.1 hx
    obtain ⟨⟨z, hz, e⟩, hw⟩ := h3 y hy
    rw [merged_fill h hz.len] at e
    subst e
    obtain ⟨g1, g2, g3, g4⟩ := binz_spec h hc hw
    refine ⟨⟨g1, g2, ?_⟩, g3⟩
    intro p hp
    have := hz.le ((firsts Q).map (fun j => p.1.getD j 0), p.2) (by
      show _ ∈ (Q.A.map _).zip Q.b
      rw [List.zip_map_left]
      exact List.mem_map.2 ⟨p, hp, rfl⟩)
    simp only at this
    rw [← dot_counts h g1 (List.of_mem_zip hp).1, g4]
    exact this
  · intro x hx hlj
    have hs := counts_sol h hx
    have hb := binz_counts h hc hx.1 hx.2.1 hlj
    rw [← hb]
    refine List.mem_map.2 ⟨_, h4 _ ⟨counts Q x, hs, (merged_fill h hs.len).symm, ?_⟩, rfl⟩
    rw [widths_eq h hc]
    exact List.Forall₂.imp (fun _ _ hab => hab.2) (counts_bd hx.2.1)

/-- Result of the search without adjacency: it ends, and yields distinct 0/1 rows of the right
length. -/
theorem solveQuestion_total {Q : Question} (h : Pre Q) :
    ∃ rows, solveQuestion Q = .ok rows ∧ rows.Nodup ∧
      ∀ x ∈ rows, x.length = ncols Q.A ∧ Bin x := by
  obtain ⟨ys, h1, h2, h3, -⟩ := solveQuestion_pre h
  refine ⟨_, h1, ?_, ?_⟩
  · refine List.Nodup.map_on ?_ h2
    intro a ha b hb e
    exact binz_injective (h3 a ha).2 (h3 b hb).2 e
  · intro x hx
    obtain ⟨y, hy, rfl⟩ := List.mem_map.1 hx
    have hw := (h3 y hy).2
    refine ⟨?_, binz_bin hw⟩
    have h1 := binz_length hw
    rw [(merged_lay Q).sum] at h1
    exact Int.ofNat.inj h1

end TDS
