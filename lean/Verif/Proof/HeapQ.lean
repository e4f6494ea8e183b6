import Verif.Model.HeapQ
import Verif.Proof.Gauss

/-! Correctness of `heapq`: sifting, popping, `heapify` and `merge`. -/

namespace TDS.HeapQ

variable {α : Type} [Inhabited α] {lt : α → α → Bool}

/-- `lt` is the strict part of a total preorder. -/
structure Total (lt : α → α → Bool) : Prop where
  asymm : ∀ {a b}, lt a b = true → lt b a = false
  trans : ∀ {a b c}, lt b a = false → lt c b = false → lt c a = false

theorem Total.refl (T : Total lt) (a : α) : lt a a = false := by
  by_cases h : lt a a = true
  · exact T.asymm h
  · simpa using h

/-- `j` is a child of `i`. -/
def Child (i j : Nat) : Prop := j = 2 * i + 1 ∨ j = 2 * i + 2

/-- The heap condition below every index from `s` on. -/
def HeapFrom (lt : α → α → Bool) (s : Nat) (h : List α) : Prop :=
  ∀ i j, s ≤ i → j < h.length → Child i j → lt (h.getD j default) (h.getD i default) = false

/-- The same, the content of `pos` being left out. -/
structure Hole (lt : α → α → Bool) (s pos : Nat) (h : List α) : Prop where
  out : ∀ i j, s ≤ i → j < h.length → Child i j → i ≠ pos → j ≠ pos →
    lt (h.getD j default) (h.getD i default) = false
  thr : ∀ p j, s ≤ p → Child p pos → j < h.length → Child pos j →
    lt (h.getD j default) (h.getD p default) = false

/-- `q` is below `s`. -/
inductive Desc (s : Nat) : Nat → Prop
  | refl : Desc s s
  | child {i j : Nat} : Desc s i → Child i j → Desc s j

theorem Desc.le {s q : Nat} (h : Desc s q) : s ≤ q := by
  induction h with
  | refl => exact le_refl _
  | child _ hc ih => rcases hc with rfl | rfl <;> omega

theorem Child.parent {i j : Nat} (h : Child i j) : (j - 1) / 2 = i := by
  rcases h with rfl | rfl <;> omega

theorem child_parent {j : Nat} (h : 0 < j) : Child ((j - 1) / 2) j := by
  unfold Child; omega

theorem Desc.parent {s q : Nat} (h : Desc s q) (hq : s < q) : Desc s ((q - 1) / 2) := by
  cases h with
  | refl => omega
  | child h hc => rw [hc.parent]; exact h

theorem getD_set' {h : List α} {p i : Nat} {a : α} (hp : p < h.length) :
    (h.set p a).getD i default = if i = p then a else h.getD i default := by
  simp only [List.getD_eq_getElem?_getD, List.getElem?_set]
  by_cases hi : p = i
  · subst hi; simp [hp]
  · simp [hi, Ne.symm hi]

theorem set_move_perm {h : List α} {p c : Nat} (hp : p < h.length) (hc : c < h.length)
    (hne : p ≠ c) (x : α) :
    ((h.set p (h.getD c default)).set c x).Perm (h.set p x) := by
  have := List.set_set_perm (as := h.set p x) (i := p) (j := c) (by simpa using hp)
    (by simpa using hc)
  rw [List.getElem_set_self, List.getElem_set_ne hne, List.set_set] at this
  rw [List.getD_eq_getElem _ _ hc]
  exact this

variable (T : Total lt)
include T

theorem smallChild_le {h : List α} {pos j : Nat} (hj : j < h.length) (hc : Child pos j) :
    lt (h.getD j default) (h.getD (smallChild lt h pos) default) = false := by
  unfold smallChild
  split
  · next hh =>
    simp only [Bool.and_eq_true, decide_eq_true_eq, Bool.not_eq_true'] at hh
    rcases hc with rfl | rfl
    · exact hh.2
    · exact T.refl _
  · next hh =>
    rcases hc with rfl | rfl
    · exact T.refl _
    · simp only [Bool.and_eq_true, decide_eq_true_eq, Bool.not_eq_true', not_and,
        Bool.not_eq_false] at hh
      exact T.asymm (hh hj)

theorem sink_spec (s : Nat) : ∀ (n : Nat) (h : List α) (pos : Nat), h.length - pos ≤ n →
    Hole lt s pos h → pos < h.length → Desc s pos →
    Hole lt s (sink lt h pos).2 (sink lt h pos).1 ∧ (sink lt h pos).1.length = h.length ∧
    (sink lt h pos).2 < h.length ∧ Desc s (sink lt h pos).2 ∧
    h.length ≤ 2 * (sink lt h pos).2 + 1 ∧
    ∀ x, ((sink lt h pos).1.set (sink lt h pos).2 x).Perm (h.set pos x) := by
  intro n
  induction n with
  | zero => intro h pos hn _ hp; omega
  | succ n ih =>
    intro h pos hn hh hp hd
    by_cases hc : 2 * pos + 1 < h.length
    · have hcl := smallChild_lt lt hc
      have hce := smallChild_eq lt h pos
      have hcc : Child pos (smallChild lt h pos) := hce
      rw [sink, dif_pos hc]
      have key : ∀ j, j < h.length → Child pos j →
        lt (h.getD j default) (h.getD (smallChild lt h pos) default) = false :=
        fun j hj hjc => smallChild_le T hj hjc
      generalize hcv : smallChild lt h pos = c at *
      have hne : pos ≠ c := by omega
      have hh' : Hole lt s c (h.set pos (h.getD c default)) := by
        constructor
        · intro i j hi hj hij hic hjc
          rw [List.length_set] at hj
          rw [getD_set' hp, getD_set' hp]
          by_cases hjp : j = pos
          · rw [if_pos hjp]
            have hip : i ≠ pos := by rcases hij with h | h <;> omega
            rw [if_neg hip]
            subst hjp
            exact hh.thr i c hi hij hcl hcc
          · rw [if_neg hjp]
            by_cases hip : i = pos
            · rw [if_pos hip]; subst hip; exact key j hj hij
            · rw [if_neg hip]; exact hh.out i j hi hj hij hip hjp
        · intro p j hsp hpc hj hcj
          rw [List.length_set] at hj
          have hpp : p = pos := by rw [← hpc.parent, hcc.parent]
          subst hpp
          have hjp : j ≠ p := by rcases hcj with h | h <;> omega
          rw [getD_set' hp, getD_set' hp, if_neg hjp, if_pos rfl]
          exact hh.out c j (by omega) hj hcj (Ne.symm hne) hjp
      have := ih (h.set pos (h.getD c default)) c (by rw [List.length_set]; omega) hh'
        (by rw [List.length_set]; exact hcl) (hd.child hcc)
      rw [List.length_set] at this
      refine ⟨this.1, this.2.1, this.2.2.1, this.2.2.2.1, this.2.2.2.2.1, fun x => ?_⟩
      exact (this.2.2.2.2.2 x).trans (set_move_perm hp hcl hne x)
    · rw [sink, dif_neg hc]
      exact ⟨hh, rfl, hp, hd, by omega, fun x => List.Perm.refl _⟩

theorem siftdownLoop_spec (s : Nat) (x : α) : ∀ (n : Nat) (h : List α) (pos : Nat), pos ≤ n →
    Hole lt s pos h → pos < h.length → Desc s pos →
    (∀ j, j < h.length → Child pos j → lt (h.getD j default) x = false) →
    HeapFrom lt s (siftdownLoop lt s x h pos) ∧
    (siftdownLoop lt s x h pos).length = h.length ∧
    (siftdownLoop lt s x h pos).Perm (h.set pos x) := by
  have stop : ∀ (h : List α) (pos : Nat), Hole lt s pos h → pos < h.length →
      (∀ j, j < h.length → Child pos j → lt (h.getD j default) x = false) →
      (∀ p, s ≤ p → Child p pos → lt x (h.getD p default) = false) →
      HeapFrom lt s (h.set pos x) := by
    intro h pos hh hp hch hpar i j hi hj hij
    rw [List.length_set] at hj
    rw [getD_set' hp, getD_set' hp]
    by_cases hjp : j = pos
    · have hip : i ≠ pos := by rcases hij with h | h <;> omega
      rw [if_pos hjp, if_neg hip]; subst hjp; exact hpar i hi hij
    · rw [if_neg hjp]
      by_cases hip : i = pos
      · rw [if_pos hip]; subst hip; exact hch j hj hij
      · rw [if_neg hip]; exact hh.out i j hi hj hij hip hjp
  intro n
  induction n with
  | zero =>
    intro h pos hn hh hp hd hch
    rw [siftdownLoop, if_neg (by omega)]
    refine ⟨stop h pos hh hp hch ?_, by simp, List.Perm.refl _⟩
    intro p _ hc; rcases hc with h | h <;> omega
  | succ n ih =>
    intro h pos hn hh hp hd hch
    rw [siftdownLoop]
    by_cases hs : s < pos
    · rw [if_pos hs]
      have hcp : Child ((pos - 1) / 2) pos := child_parent (by omega)
      have hdp := hd.parent hs
      generalize hpv : (pos - 1) / 2 = p at *
      have hpl : p < pos := by rcases hcp with h | h <;> omega
      simp only
      by_cases hlt : lt x (h.getD p default) = true
      · rw [if_pos hlt]
        have hle : lt (h.getD p default) x = false := T.asymm hlt
        have hh' : Hole lt s p (h.set pos (h.getD p default)) := by
          constructor
          · intro i j hi hj hij hip hjp
            rw [List.length_set] at hj
            rw [getD_set' hp, getD_set' hp]
            by_cases hjpos : j = pos
            · exact absurd (by rw [← hij.parent, hjpos, hcp.parent]) hip
            · rw [if_neg hjpos]
              by_cases hipos : i = pos
              · rw [if_pos hipos]; subst hipos
                exact hh.thr p j hdp.le hcp hj hij
              · rw [if_neg hipos]; exact hh.out i j hi hj hij hipos hjpos
          · intro g j hg hgp hj hpj
            rw [List.length_set] at hj
            have hgne : g ≠ pos := by rcases hgp with h | h <;> omega
            have hgp' : lt (h.getD p default) (h.getD g default) = false :=
              hh.out g p hg (by omega) hgp hgne (by omega)
            rw [getD_set' hp, getD_set' hp, if_neg hgne]
            by_cases hjpos : j = pos
            · rw [if_pos hjpos]; exact hgp'
            · rw [if_neg hjpos]
              exact T.trans hgp' (hh.out p j hdp.le hj hpj (by omega) hjpos)
        have := ih (h.set pos (h.getD p default)) p (by omega) hh'
          (by rw [List.length_set]; omega) hdp (by
            intro j hj hpj
            rw [List.length_set] at hj
            rw [getD_set' hp]
            by_cases hjpos : j = pos
            · rw [if_pos hjpos]; exact hle
            · rw [if_neg hjpos]
              exact T.trans hle (hh.out p j hdp.le hj hpj (by omega) hjpos))
        rw [List.length_set] at this
        exact ⟨this.1, this.2.1, this.2.2.trans (set_move_perm hp (by omega) (by omega) x)⟩
      · rw [if_neg hlt]
        refine ⟨stop h pos hh hp hch ?_, by simp, List.Perm.refl _⟩
        intro p' _ hc
        have : p' = p := by rw [← hc.parent, hpv]
        rw [this]; simpa using hlt
    · rw [if_neg hs]
      have := hd.le
      refine ⟨stop h pos hh hp hch ?_, by simp, List.Perm.refl _⟩
      intro p hp' hc; rcases hc with h | h <;> omega

/-- `_siftup` at `s` extends the heap condition from the children of `s` to `s`. -/
theorem siftup_spec {s : Nat} {h : List α} (hs : s < h.length) (hh : HeapFrom lt (s + 1) h) :
    HeapFrom lt s (siftup lt h s) ∧ (siftup lt h s).Perm h := by
  have hole : Hole lt s s h := by
    constructor
    · intro i j hi hj hij his _
      exact hh i j (by omega) hj hij
    · intro p j hp hps
      rcases hps with h | h <;> omega
  obtain ⟨h1, h2, h3, h4, h5, h6⟩ := sink_spec T s _ h s (le_refl _) hole hs .refl
  unfold siftup siftdown
  simp only
  generalize (sink lt h s).1 = h', (sink lt h s).2 = q at *
  have hg : (h'.set q (h.getD s default)).getD q default = h.getD s default := by
    rw [getD_set' (by omega), if_pos rfl]
  rw [hg]
  have hole' : Hole lt s q (h'.set q (h.getD s default)) := by
    constructor
    · intro i j hi hj hij hiq hjq
      rw [List.length_set] at hj
      rw [getD_set' (by omega), getD_set' (by omega), if_neg hiq, if_neg hjq]
      exact h1.out i j hi hj hij hiq hjq
    · intro p j hp hpq hj hqj
      rw [List.length_set] at hj
      rcases hqj with h | h <;> omega
  obtain ⟨g1, g2, g3⟩ := siftdownLoop_spec T s (h.getD s default) q _ q (le_refl _) hole'
    (by rw [List.length_set]; omega) h4 (by
      intro j hj hqj
      rw [List.length_set] at hj
      rcases hqj with h | h <;> omega)
  refine ⟨g1, g3.trans ?_⟩
  rw [List.set_set]
  refine (h6 _).trans ?_
  rw [List.getD_eq_getElem _ _ hs, List.set_getElem_self]

theorem HeapFrom.root_le {h : List α} (hh : HeapFrom lt 0 h) :
    ∀ i, i < h.length → lt (h.getD i default) (h.getD 0 default) = false := by
  intro i
  induction i using Nat.strong_induction_on with
  | _ i ih =>
    intro hi
    by_cases h0 : i = 0
    · subst h0; exact T.refl _
    · have hc := child_parent (j := i) (by omega)
      exact T.trans (ih _ (by omega) (by omega)) (hh _ i (by omega) hi hc)

theorem HeapFrom.head_le {x : α} {t : List α} (hh : HeapFrom lt 0 (x :: t)) :
    ∀ y ∈ x :: t, lt y x = false := by
  intro y hy
  obtain ⟨i, hi, rfl⟩ := List.getElem_of_mem hy
  have := HeapFrom.root_le T hh i hi
  rwa [List.getD_eq_getElem _ _ hi] at this

theorem heappop_spec {h : List α} (hh : HeapFrom lt 0 h) (hne : h ≠ []) :
    ∃ x t, heappop lt h = .ok (x, t) ∧ HeapFrom lt 0 t ∧ (x :: t).Perm h ∧ h.head? = some x ∧
      ∀ y ∈ h, lt y x = false := by
  match h, hh, hne with
  | [x], hh, _ => exact ⟨x, [], rfl, by intro i j _ hj; simp at hj, List.Perm.refl _, rfl,
      hh.head_le T⟩
  | x :: y :: t, hh, _ =>
    refine ⟨x, _, rfl, ?_⟩
    generalize hl : (x :: y :: t).getLast (by simp) = l
    have hsplit : (x :: (y :: t).dropLast) ++ [l] = x :: y :: t := by
      have := List.dropLast_append_getLast (l := x :: y :: t) (by simp)
      rw [hl] at this; simpa [List.dropLast] using this
    have hd : (x :: y :: t).dropLast = x :: (y :: t).dropLast := rfl
    rw [hd, List.set_cons_zero]
    generalize (y :: t).dropLast = d at hsplit
    have hfrom : HeapFrom lt (0 + 1) (l :: d) := by
      intro i j hi hj hij
      have hj0 : 0 < j := by rcases hij with h | h <;> omega
      have hil : i < j := by rcases hij with h | h <;> omega
      have e : ∀ k, 0 < k → k < (l :: d).length →
          (l :: d).getD k default = (x :: y :: t).getD k default := by
        intro k hk hkl
        rw [← hsplit]
        obtain ⟨k, rfl⟩ : ∃ m, k = m + 1 := ⟨k - 1, by omega⟩
        simp only [List.length_cons] at hkl
        simp only [List.cons_append, List.getD_cons_succ]
        rw [List.getD_append _ _ _ _ (by omega)]
      rw [e j hj0 hj, e i (by omega) (by omega)]
      refine hh i j (by omega) ?_ hij
      rw [← hsplit]; simp only [List.length_append, List.length_cons] at hj ⊢; omega
    obtain ⟨h1, h2⟩ := siftup_spec T (s := 0) (by simp) hfrom
    refine ⟨h1, ?_, rfl, hh.head_le T⟩
    rw [← hsplit]
    refine (List.Perm.cons x h2).trans ?_
    rw [List.cons_append]
    exact List.Perm.cons x (List.perm_append_singleton l d).symm

theorem heapreplace_spec {x y : α} {t : List α} (hh : HeapFrom lt 0 (x :: t)) :
    HeapFrom lt 0 (heapreplace lt (x :: t) y) ∧ (heapreplace lt (x :: t) y).Perm (y :: t) := by
  unfold heapreplace
  rw [List.set_cons_zero]
  refine siftup_spec T (s := 0) (by simp) ?_
  intro i j hi hj hij
  have := hh i j (by omega) hj hij
  obtain ⟨i, rfl⟩ : ∃ m, i = m + 1 := ⟨i - 1, by omega⟩
  obtain ⟨j, rfl⟩ : ∃ m, j = m + 1 := ⟨j - 1, by rcases hij with h | h <;> omega⟩
  simpa using this

theorem heapify_spec (h : List α) : HeapFrom lt 0 (heapify lt h) ∧ (heapify lt h).Perm h := by
  unfold heapify
  have : ∀ n (g : List α), n ≤ g.length → HeapFrom lt n g →
      HeapFrom lt 0 ((List.range n).reverse.foldl (siftup lt) g) ∧
      ((List.range n).reverse.foldl (siftup lt) g).Perm g := by
    intro n
    induction n with
    | zero => intro g _ hg; exact ⟨hg, List.Perm.refl _⟩
    | succ n ih =>
      intro g hn hg
      rw [List.range_succ, List.reverse_append]
      simp only [List.reverse_cons, List.reverse_nil, List.nil_append, List.cons_append,
        List.foldl_cons]
      obtain ⟨h1, h2⟩ := siftup_spec T (s := n) (by omega) hg
      obtain ⟨h3, h4⟩ := ih _ (by rw [h2.length_eq]; omega) h1
      exact ⟨h3, h4.trans h2⟩
  refine this _ h (by omega) ?_
  intro i j hi hj hij
  rcases hij with h | h <;> omega

/-! ### merge -/

omit T

/-- `lt` is a strict linear order. -/
structure Linear (lt : α → α → Bool) : Prop extends Total lt where
  eq_of : ∀ {a b}, lt a b = false → lt b a = false → a = b

theorem nodeLt_total [DecidableEq α] (T : Linear lt) : Total (nodeLt lt) where
  asymm := by
    intro a b h
    unfold nodeLt at *
    split at h
    · next he => rw [if_pos he.symm]; simp at h ⊢; omega
    · next he => rw [if_neg (Ne.symm he)]; exact T.asymm h
  trans := by
    intro a b c h1 h2
    unfold nodeLt at *
    split at h1
    · next e1 =>
      split at h2
      · next e2 => rw [if_pos (e2.trans e1)]; simp at h1 h2 ⊢; omega
      · next e2 => rw [← e1, if_neg e2]; exact h2
    · next e1 =>
      split at h2
      · next e2 => rw [e2, if_neg e1]; exact h1
      · next e2 =>
        by_cases e3 : c.value = a.value
        · exfalso
          rw [e3] at h2
          exact e1 (T.eq_of h1 h2)
        · rw [if_neg e3]; exact T.trans h1 h2

theorem nodeLt_value [DecidableEq α] (T : Linear lt) {a b : Node α} (h : nodeLt lt a b = false) :
    lt a.value b.value = false := by
  unfold nodeLt at h
  split at h
  · next e => rw [e]; exact T.refl _
  · exact h

/-- Sorted, for a strict order. -/
def Sorted (lt : α → α → Bool) (l : List α) : Prop := l.Pairwise (fun a b => lt b a = false)

/-- Everything a list of nodes still holds. -/
def content (h : List (Node α)) : List α := h.flatMap (fun s => s.value :: s.rest)

theorem content_perm {a b : List (Node α)} (h : a.Perm b) : (content a).Perm (content b) :=
  List.Perm.flatMap_right _ h

theorem mergeLoop_spec [DecidableEq α] (T : Linear lt) : ∀ (n : Nat) (h : List (Node α)),
    (content h).length ≤ n → HeapFrom (nodeLt lt) 0 h →
    (∀ s ∈ h, Sorted lt (s.value :: s.rest)) →
    ∃ out, mergeLoop lt n h = .ok out ∧ Sorted lt out ∧ out.Perm (content h) := by
  intro n
  induction n with
  | zero =>
    intro h hn hh hs
    match h with
    | [] => exact ⟨[], by unfold mergeLoop; rfl, List.Pairwise.nil, List.Perm.refl _⟩
    | s :: t => simp [content] at hn
  | succ n ih =>
    intro h hn hh hs
    match h with
    | [] => exact ⟨[], by unfold mergeLoop; rfl, List.Pairwise.nil, List.Perm.refl _⟩
    | [s] =>
      refine ⟨s.value :: s.rest, by unfold mergeLoop; rfl, hs s (by simp), ?_⟩
      simp [content]
    | s :: t :: h =>
      have NT := nodeLt_total T
      have least : ∀ y ∈ content (s :: t :: h), lt y s.value = false := by
        intro y hy
        simp only [content, List.mem_flatMap] at hy
        obtain ⟨a, ha, hya⟩ := hy
        have h1 := nodeLt_value T (HeapFrom.head_le NT hh a ha)
        have h2 := hs a ha
        unfold Sorted at h2
        rw [List.pairwise_cons] at h2
        rcases List.mem_cons.1 hya with rfl | hya
        · exact h1
        · exact T.trans h1 (h2.1 y hya)
      have fin : ∀ (g : List (Node α)), HeapFrom (nodeLt lt) 0 g →
          (∀ a ∈ g, Sorted lt (a.value :: a.rest)) →
          (s.value :: content g).Perm (content (s :: t :: h)) →
          ∃ out, mergeLoop lt n g = .ok out ∧ Sorted lt (s.value :: out) ∧
            (s.value :: out).Perm (content (s :: t :: h)) := by
        intro g hg hgs hp
        have hl := hp.length_eq
        simp only [List.length_cons] at hl
        obtain ⟨out, h1, h2, h3⟩ := ih g (by omega) hg hgs
        refine ⟨out, h1, ?_, (List.Perm.cons _ h3).trans hp⟩
        unfold Sorted
        rw [List.pairwise_cons]
        refine ⟨fun y hy => least y ?_, h2⟩
        exact (hp.mem_iff).1 (List.mem_cons_of_mem _ (h3.mem_iff.1 hy))
      rw [mergeLoop]
      cases hr : s.rest with
      | nil =>
        obtain ⟨x, g, e1, e2, e3, e4, _⟩ := heappop_spec NT hh (by simp)
        simp only [List.head?_cons, Option.some.injEq] at e4
        subst e4
        have e3' : g.Perm (t :: h) := List.Perm.cons_inv e3
        obtain ⟨out, o1, o2, o3⟩ := fin g e2
          (fun a ha => hs a (List.mem_cons_of_mem _ (e3'.mem_iff.1 ha)))
          ((List.Perm.cons _ (content_perm e3')).trans (by simp [content, hr]))
        refine ⟨s.value :: out, ?_, o2, o3⟩
        simp only [e1, ok_bind, o1]
      | cons y ys =>
        obtain ⟨e1, e2⟩ := heapreplace_spec NT (y := ⟨y, s.order, ys⟩) hh
        have hss := hs s (by simp)
        unfold Sorted at hss
        rw [hr, List.pairwise_cons] at hss
        obtain ⟨out, o1, o2, o3⟩ := fin _ e1
          (fun a ha => by
            rcases List.mem_cons.1 (e2.mem_iff.1 ha) with rfl | ha
            · exact hss.2
            · exact hs a (List.mem_cons_of_mem _ ha))
          ((List.Perm.cons _ (content_perm e2)).trans (by simp [content, hr]))
        refine ⟨s.value :: out, ?_, o2, o3⟩
        simp only [ok_bind, o1]

theorem content_init (ls : List (List α)) : content (mergeInit ls) = ls.flatten := by
  unfold mergeInit
  generalize 0 = k
  induction ls generalizing k with
  | nil => rfl
  | cons l ls ih =>
    have := ih (k + 1)
    cases l with
    | nil => simpa [content] using this
    | cons x xs => simpa [content] using this

theorem mem_init {ls : List (List α)} {s : Node α} (h : s ∈ mergeInit ls) :
    s.value :: s.rest ∈ ls := by
  unfold mergeInit at h
  rw [List.mem_filterMap] at h
  obtain ⟨⟨l, i⟩, h1, h2⟩ := h
  have hl : l ∈ ls := by
    have := List.mem_zipIdx h1
    rw [this.2.2]; exact List.getElem_mem _
  cases l with
  | nil => simp at h2
  | cons x xs =>
    simp only [Option.some.injEq] at h2
    subst h2
    exact hl

/-- `merge` of sorted lists is the sorted list of all their elements. -/
theorem merge_spec [DecidableEq α] (T : Linear lt) {ls : List (List α)}
    (hs : ∀ l ∈ ls, Sorted lt l) :
    ∃ out, merge lt ls = .ok out ∧ Sorted lt out ∧ out.Perm ls.flatten := by
  obtain ⟨h1, h2⟩ := heapify_spec (nodeLt_total T) (mergeInit ls)
  have hp := content_perm h2
  rw [content_init] at hp
  obtain ⟨out, o1, o2, o3⟩ := mergeLoop_spec T ls.flatten.length _ (le_of_eq hp.length_eq) h1
    (fun s hs' => hs _ (mem_init (h2.mem_iff.1 hs')))
  exact ⟨out, o1, o2, o3.trans hp⟩

end TDS.HeapQ

namespace TDS.Gauss

theorem Entry.lt_false {a b : Entry} : a.lt b = false ↔ b.le a = true := by
  simp [Entry.lt]

theorem Entry.linear : HeapQ.Linear Entry.lt where
  asymm := by
    intro a b h
    rw [Entry.lt_false]
    simp only [Entry.lt, Bool.not_eq_true'] at h
    exact Entry.le_of_not (by simp [h])
  trans := by
    intro a b c h1 h2
    rw [Entry.lt_false] at *
    exact Entry.le_trans h1 h2
  eq_of := by
    intro a b h1 h2
    rw [Entry.lt_false] at *
    exact Entry.le_antisymm h2 h1

theorem sorted_iff {l : List Entry} : HeapQ.Sorted Entry.lt l ↔ Sorted l := by
  unfold HeapQ.Sorted Sorted
  simp only [Entry.lt_false]

theorem sorted_unique {a b : List Entry} (ha : Sorted a) (hb : Sorted b) (h : a.Perm b) : a = b :=
  List.Perm.eq_of_pairwise (fun _ _ _ _ h1 h2 => Entry.le_antisymm h1 h2) ha hb h

theorem hmergeStep_sorted {x : Entry} {xs : List Entry} {rest : List Entry → List Entry}
    (hx : Sorted (x :: xs)) (hr : ∀ ys, Sorted ys → Sorted (rest ys))
    (hp : ∀ ys, (rest ys).Perm (xs ++ ys)) :
    ∀ ys, Sorted ys → Sorted (hmergeStep x xs rest ys) := by
  intro ys
  unfold Sorted at *
  rw [List.pairwise_cons] at hx
  induction ys with
  | nil => intro _; simpa [hmergeStep] using hx
  | cons y ys ih =>
    intro hy
    have hy' := hy
    rw [List.pairwise_cons] at hy
    simp only [hmergeStep]
    split
    · next hle =>
      rw [List.pairwise_cons]
      refine ⟨fun z hz => ?_, hr _ hy'⟩
      rcases List.mem_append.1 ((hp _).mem_iff.1 hz) with hz | hz
      · exact hx.1 z hz
      · rcases List.mem_cons.1 hz with rfl | hz
        · exact hle
        · exact Entry.le_trans hle (hy.1 z hz)
    · next hle =>
      have hyx : y.le x = true := Entry.le_of_not hle
      rw [List.pairwise_cons]
      refine ⟨fun z hz => ?_, ih hy.2⟩
      have hz' := (hmergeStep_perm hp ys).mem_iff.1 hz
      rcases List.mem_append.1 hz' with hz | hz
      · rcases List.mem_cons.1 hz with rfl | hz
        · exact hyx
        · exact Entry.le_trans hyx (hx.1 z hz)
      · exact hy.1 z hz

theorem hmerge_sorted {xs ys : List Entry} (hx : Sorted xs) (hy : Sorted ys) :
    Sorted (hmerge xs ys) := by
  induction xs generalizing ys with
  | nil => exact hy
  | cons x xs ih =>
    exact hmergeStep_sorted hx (fun ys h => ih (List.Pairwise.of_cons hx) h)
      (fun ys => hmerge_perm xs ys) ys hy

end TDS.Gauss
