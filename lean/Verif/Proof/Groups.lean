import Verif.Proof.Tree
import Mathlib.Data.List.Induction

/-! The first merging of equal columns, on the question made by `from_matrix`. -/

namespace TDS

/-! ### grouping -/

/-- What `groups enc` contains. -/
structure GroupsOK (enc : List Int) (d : List (Int × List Nat)) : Prop where
  keys : (d.map Prod.fst).Nodup
  mem : ∀ c, c ∈ d.map Prod.fst ↔ c ∈ enc
  ne : ∀ g ∈ d, g.2 ≠ []
  inc : ∀ g ∈ d, g.2.Pairwise (· < ·)
  locs : ∀ g ∈ d, ∀ j, j ∈ g.2 ↔ j < enc.length ∧ enc.getD j 0 = g.1
  heads : (d.map (fun g => g.2.headD 0)).Pairwise (· < ·)

theorem groupAdd_old {d : List (Int × List Nat)} {c : Int} {j : Nat} (h : c ∈ d.map Prod.fst) :
    ∃ pre ls post, d = pre ++ (c, ls) :: post ∧ groupAdd d c j = pre ++ (c, ls ++ [j]) :: post := by
  induction d with
  | nil => simp at h
  | cons q d ih =>
    obtain ⟨c', ls⟩ := q
    by_cases hc : c' = c
    · subst hc
      exact ⟨[], ls, d, rfl, by simp [groupAdd]⟩
    · have h' : c ∈ d.map Prod.fst := by
        rcases List.mem_cons.1 h with h | h
        · exact absurd h.symm hc
        · exact h
      obtain ⟨pre, ls', post, e1, e2⟩ := ih h'
      exact ⟨(c', ls) :: pre, ls', post, by rw [e1]; rfl, by rw [groupAdd, if_neg hc, e2]; rfl⟩

theorem groups_snoc (enc : List Int) (a : Int) :
    groups (enc ++ [a]) = groupAdd (groups enc) a enc.length := by
  unfold groups
  rw [List.zipIdx_append, List.foldl_append]
  simp

theorem getD_snoc_lt {enc : List Int} {a : Int} {j : Nat} (h : j < enc.length) :
    (enc ++ [a]).getD j 0 = enc.getD j 0 := by
  simp [List.getD_eq_getElem?_getD, List.getElem?_append_left h]

theorem getD_snoc_eq (enc : List Int) (a : Int) : (enc ++ [a]).getD enc.length 0 = a := by
  simp [List.getD_eq_getElem?_getD]

theorem GroupsOK.head_mem {enc : List Int} {d : List (Int × List Nat)} (h : GroupsOK enc d)
    {g : Int × List Nat} (hg : g ∈ d) : g.2.headD 0 ∈ g.2 := by
  obtain ⟨a, t, e⟩ := List.exists_cons_of_ne_nil (h.ne g hg)
  rw [e]; simp

theorem groups_ok (enc : List Int) : GroupsOK enc (groups enc) := by
  induction enc using List.reverseRecOn with
  | nil =>
    exact ⟨List.nodup_nil, by simp [groups], by simp [groups], by simp [groups],
      by simp [groups], List.Pairwise.nil⟩
  | append_singleton enc a ih =>
    rw [groups_snoc]
    have hlen : (enc ++ [a]).length = enc.length + 1 := by simp
    have hmove : ∀ (c : Int) (ls : List Nat), c ≠ a →
        (∀ j, j ∈ ls ↔ j < enc.length ∧ enc.getD j 0 = c) →
        ∀ j, j ∈ ls ↔ j < (enc ++ [a]).length ∧ (enc ++ [a]).getD j 0 = c := by
      intro c ls hc h j
      rw [h, hlen]
      constructor
      · rintro ⟨h1, h2⟩
        exact ⟨by omega, by rw [getD_snoc_lt h1, h2]⟩
      · rintro ⟨h1, h2⟩
        by_cases hj : j < enc.length
        · rw [getD_snoc_lt hj] at h2; exact ⟨hj, h2⟩
        · have : j = enc.length := by omega
          subst this
          rw [getD_snoc_eq] at h2
          exact absurd h2.symm hc
    by_cases hc : a ∈ (groups enc).map Prod.fst
    · obtain ⟨pre, ls, post, e1, e2⟩ := groupAdd_old (j := enc.length) hc
      rw [e2]
      have hk : (pre ++ (a, ls ++ [enc.length]) :: post).map Prod.fst =
          (groups enc).map Prod.fst := by rw [e1]; simp
      have hin : (a, ls) ∈ groups enc := by rw [e1]; simp
      have hls := ih.locs _ hin
      have hlsne := ih.ne _ hin
      have hnd := ih.keys
      rw [e1] at hnd
      simp only [List.map_append, List.map_cons, List.nodup_append, List.nodup_cons,
        List.mem_cons] at hnd
      have hcases : ∀ g ∈ pre ++ (a, ls ++ [enc.length]) :: post,
          g = (a, ls ++ [enc.length]) ∨ (g ∈ groups enc ∧ g.1 ≠ a) := by
        intro g hg
        rcases List.mem_append.1 hg with hg | hg
        · right
          refine ⟨by rw [e1]; simp [hg], ?_⟩
          exact hnd.2.2 _ (List.mem_map.2 ⟨g, hg, rfl⟩) a (Or.inl rfl)
        · rcases List.mem_cons.1 hg with hg | hg
          · exact Or.inl hg
          · right
            refine ⟨by rw [e1]; simp [hg], ?_⟩
            intro e
            exact hnd.2.1.1 (List.mem_map.2 ⟨g, hg, e⟩)
      refine ⟨by rw [hk]; exact ih.keys, ?_, ?_, ?_, ?_, ?_⟩
      · intro c
        rw [hk, ih.mem, List.mem_append, List.mem_singleton]
        constructor
        · exact Or.inl
        · rintro (h | rfl)
          · exact h
          · exact (ih.mem _).1 hc
      · intro g hg
        rcases hcases g hg with rfl | ⟨hg, -⟩
        · simp
        · exact ih.ne g hg
      · intro g hg
        rcases hcases g hg with rfl | ⟨hg, -⟩
        · rw [List.pairwise_append]
          refine ⟨ih.inc _ hin, List.pairwise_singleton _ _, ?_⟩
          intro i hi j hj
          rw [List.mem_singleton] at hj
          have := ((hls i).1 hi).1
          omega
        · exact ih.inc g hg
      · intro g hg
        rcases hcases g hg with rfl | ⟨hg, hne⟩
        · intro j
          simp only [List.mem_append, List.mem_singleton, hls, hlen]
          constructor
          · rintro (⟨h1, h2⟩ | rfl)
            · exact ⟨by omega, by rw [getD_snoc_lt h1, h2]⟩
            · exact ⟨by omega, getD_snoc_eq _ _⟩
          · rintro ⟨h1, h2⟩
            by_cases hj : j < enc.length
            · rw [getD_snoc_lt hj] at h2; exact Or.inl ⟨hj, h2⟩
            · exact Or.inr (by omega)
        · exact hmove _ _ hne (ih.locs g hg)
      · have : (pre ++ (a, ls ++ [enc.length]) :: post).map (fun g => g.2.headD 0) =
            (groups enc).map (fun g => g.2.headD 0) := by
          rw [e1]
          obtain ⟨x, t, e⟩ := List.exists_cons_of_ne_nil hlsne
          simp only at e
          subst e
          simp
        rw [this]; exact ih.heads
    · rw [groupAdd_new hc]
      have hcases : ∀ g ∈ groups enc ++ [(a, [enc.length])],
          g = (a, [enc.length]) ∨ (g ∈ groups enc ∧ g.1 ≠ a) := by
        intro g hg
        rcases List.mem_append.1 hg with hg | hg
        · right
          refine ⟨hg, fun e => hc (List.mem_map.2 ⟨g, hg, e⟩)⟩
        · exact Or.inl (List.mem_singleton.1 hg)
      refine ⟨?_, ?_, ?_, ?_, ?_, ?_⟩
      · rw [List.map_append, List.nodup_append]
        refine ⟨ih.keys, by simp, ?_⟩
        intro c hc' c' hc'' e
        simp only [List.map_cons, List.map_nil, List.mem_singleton] at hc''
        subst hc''; subst e
        exact hc hc'
      · intro c
        rw [List.map_append, List.mem_append, ih.mem, List.mem_append]
        simp
      · intro g hg
        rcases hcases g hg with rfl | ⟨hg, -⟩
        · simp
        · exact ih.ne g hg
      · intro g hg
        rcases hcases g hg with rfl | ⟨hg, -⟩
        · exact List.pairwise_singleton _ _
        · exact ih.inc g hg
      · intro g hg
        rcases hcases g hg with rfl | ⟨hg, hne⟩
        · intro j
          simp only [List.mem_singleton, hlen]
          constructor
          · rintro rfl; exact ⟨by omega, getD_snoc_eq _ _⟩
          · rintro ⟨h1, h2⟩
            by_contra hj
            have hj' : j < enc.length := by omega
            rw [getD_snoc_lt hj', List.getD_eq_getElem _ _ hj'] at h2
            exact hc ((ih.mem a).2 (h2 ▸ List.getElem_mem _))
        · exact hmove _ _ hne (ih.locs g hg)
      · rw [List.map_append, List.pairwise_append]
        refine ⟨ih.heads, List.pairwise_singleton _ _, ?_⟩
        intro i hi j hj
        obtain ⟨g, hg, rfl⟩ := List.mem_map.1 hi
        simp only [List.map_cons, List.map_nil, List.mem_singleton, List.headD_cons] at hj
        subst hj
        exact ((ih.locs g hg _).1 (ih.head_mem hg)).1

namespace GroupsOK

variable {enc : List Int} {d : List (Int × List Nat)}

theorem eq_of_key (h : GroupsOK enc d) {g g' : Int × List Nat} (hg : g ∈ d) (hg' : g' ∈ d)
    (e : g.1 = g'.1) : g = g' :=
  List.inj_on_of_nodup_map h.keys hg hg' e

theorem exists_group (h : GroupsOK enc d) {j : Nat} (hj : j < enc.length) :
    ∃ g ∈ d, g.1 = enc.getD j 0 ∧ j ∈ g.2 := by
  have : enc.getD j 0 ∈ d.map Prod.fst := by
    rw [h.mem, List.getD_eq_getElem _ _ hj]; exact List.getElem_mem _
  obtain ⟨g, hg, e⟩ := List.mem_map.1 this
  exact ⟨g, hg, e, (h.locs g hg j).2 ⟨hj, e.symm⟩⟩

theorem group_unique (h : GroupsOK enc d) {g g' : Int × List Nat} (hg : g ∈ d) (hg' : g' ∈ d)
    {j : Nat} (hj : j ∈ g.2) (hj' : j ∈ g'.2) : g = g' := by
  apply h.eq_of_key hg hg'
  rw [← ((h.locs g hg j).1 hj).2, ← ((h.locs g' hg' j).1 hj').2]

theorem head_le (h : GroupsOK enc d) {g : Int × List Nat} (hg : g ∈ d) {j : Nat} (hj : j ∈ g.2) :
    g.2.headD 0 ≤ j := by
  have hi := h.inc g hg
  obtain ⟨a, t, e⟩ := List.exists_cons_of_ne_nil (h.ne g hg)
  rw [e] at hj hi ⊢
  rw [List.headD_cons]
  rcases List.mem_cons.1 hj with rfl | hj
  · exact Nat.le_refl _
  · exact Nat.le_of_lt ((List.pairwise_cons.1 hi).1 j hj)

theorem flatten_nodup (h : GroupsOK enc d) : (d.map Prod.snd).flatten.Nodup := by
  rw [List.nodup_flatten]
  refine ⟨?_, ?_⟩
  · intro l hl
    obtain ⟨g, hg, rfl⟩ := List.mem_map.1 hl
    exact List.Pairwise.imp (fun h => Nat.ne_of_lt h) (h.inc g hg)
  · have hd : d.Nodup := List.Nodup.of_map _ h.keys
    rw [List.pairwise_map]
    refine List.Pairwise.imp_of_mem ?_ hd
    intro g g' hg hg' hne j hj hj'
    exact hne (h.group_unique hg hg' hj hj')

theorem flatten_perm (h : GroupsOK enc d) :
    List.Perm (d.map Prod.snd).flatten (List.range enc.length) := by
  rw [List.perm_ext_iff_of_nodup h.flatten_nodup List.nodup_range]
  intro j
  rw [List.mem_range, List.mem_flatten]
  constructor
  · rintro ⟨l, hl, hj⟩
    obtain ⟨g, hg, rfl⟩ := List.mem_map.1 hl
    exact ((h.locs g hg j).1 hj).1
  · intro hj
    obtain ⟨g, hg, -, hjg⟩ := h.exists_group hj
    exact ⟨g.2, List.mem_map.2 ⟨g, hg, rfl⟩, hjg⟩

theorem keep (h : GroupsOK enc d) :
    keepIdx (d.map (fun g => g.2.tail)).flatten enc.length = d.map (fun g => g.2.headD 0) := by
  have hs1 : (keepIdx (d.map (fun g => g.2.tail)).flatten enc.length).Pairwise (· < ·) :=
    List.Pairwise.sublist (deleteFrom_sublist _ _ _) List.pairwise_lt_range
  have hmem : ∀ j, j ∈ keepIdx (d.map (fun g => g.2.tail)).flatten enc.length ↔
      j ∈ d.map (fun g => g.2.headD 0) := by
    intro j
    unfold keepIdx npDelete
    rw [deleteFrom_eq_filterMap, List.mem_filterMap]
    constructor
    · rintro ⟨⟨a, i⟩, hp, he⟩
      have h1 := List.mem_zipIdx hp
      simp only [Nat.zero_add, Nat.sub_zero, List.length_range, List.getElem_range] at h1
      obtain ⟨-, h2, rfl⟩ := h1
      simp only at he
      split at he
      · cases he
      · rename_i hn
        cases he
        obtain ⟨g, hg, -, hjg⟩ := h.exists_group h2
        refine List.mem_map.2 ⟨g, hg, ?_⟩
        by_contra hne
        apply hn
        rw [List.mem_flatten]
        refine ⟨g.2.tail, List.mem_map.2 ⟨g, hg, rfl⟩, ?_⟩
        obtain ⟨x, t, e⟩ := List.exists_cons_of_ne_nil (h.ne g hg)
        rw [e] at hjg hne ⊢
        rcases List.mem_cons.1 hjg with hh | hh
        · exact absurd hh.symm hne
        · exact hh
    · intro hj
      obtain ⟨g, hg, rfl⟩ := List.mem_map.1 hj
      have hlt := ((h.locs g hg _).1 (h.head_mem hg)).1
      refine ⟨(g.2.headD 0, g.2.headD 0), ?_, ?_⟩
      · rw [List.mem_iff_getElem]
        exact ⟨g.2.headD 0, by simpa using hlt, by simp⟩
      · rw [if_neg]
        intro hmem
        obtain ⟨l, hl, hj⟩ := List.mem_flatten.1 hmem
        obtain ⟨g', hg', rfl⟩ := List.mem_map.1 hl
        simp only at hj
        have := h.group_unique hg hg' (h.head_mem hg) (List.mem_of_mem_tail hj)
        subst this
        have hi := h.inc g hg
        obtain ⟨x, t, e⟩ := List.exists_cons_of_ne_nil (h.ne g hg)
        rw [e] at hj hi
        rw [List.headD_cons, List.tail_cons] at hj
        exact absurd ((List.pairwise_cons.1 hi).1 x hj) (Nat.lt_irrefl _)
  have hp : List.Perm (keepIdx (d.map (fun g => g.2.tail)).flatten enc.length)
      (d.map (fun g => g.2.headD 0)) := by
    rw [List.perm_ext_iff_of_nodup (keepIdx_nodup _ _)
      (List.Pairwise.imp (fun h => Nat.ne_of_lt h) h.heads)]
    exact hmem
  exact hp.eq_of_pairwise (fun a b _ _ h1 h2 => absurd h1 (Nat.lt_asymm h2)) hs1 h.heads

theorem head_zero (h : GroupsOK enc d) (hne : enc ≠ []) :
    (d.map (fun g => g.2.headD 0)).headD 1 = 0 := by
  have h0 : 0 < enc.length := List.length_pos_iff.2 hne
  obtain ⟨g, hg, -, hj⟩ := h.exists_group h0
  have hz : g.2.headD 0 = 0 := Nat.le_zero.1 (h.head_le hg hj)
  have hin : 0 ∈ d.map (fun g => g.2.headD 0) := List.mem_map.2 ⟨g, hg, hz⟩
  have hs := h.heads
  cases hd : d.map (fun g => g.2.headD 0) with
  | nil => rw [hd] at hin; simp at hin
  | cons a t =>
    rw [hd] at hin hs
    rcases List.mem_cons.1 hin with e | hin
    · exact e.symm
    · have := (List.pairwise_cons.1 hs).1 0 hin
      omega

end GroupsOK

end TDS
