import Verif.Proof.HeapQ

/-! # C57: popping a heap that is not sorted

`_gauss_elim` and `_elim` (/repo/srg/gauss_elim.py:14-68) keep their rows in a plain list that they
read with `heapq.heappop` and rebuild with `heapq.merge`.  `heappop` is only right on a list that
satisfies the heap condition, `merge` only on sorted lists, and after the first `heappop` the list
is a heap but in general not sorted. -/

namespace Spec

open TDS TDS.Gauss

/-- The heap condition of the `heapq` documentation: `heap[k] <= heap[2*k+1]` and
`heap[k] <= heap[2*k+2]`, elements that do not exist counting as infinite. -/
def IsHeap (h : List Entry) : Prop :=
  ∀ k a b, h[k]? = some a → (h[2 * k + 1]? = some b ∨ h[2 * k + 2]? = some b) → a.le b = true

/-- Ascending. -/
def Ascending (l : List Entry) : Prop := l.Pairwise (fun a b => a.le b = true)

/-- What the `heapq` documentation promises of `heappop` and `merge`. -/
structure HeapDoc (L : HeapLib) : Prop where
  popEmpty : L.pop [] = .error .index
  pop : ∀ h, IsHeap h → h ≠ [] → ∃ x t, L.pop h = .ok (x, t) ∧ IsHeap t ∧ (x :: t).Perm h ∧
    ∀ y ∈ h, x.le y = true
  merge : ∀ ls, (∀ l ∈ ls, Ascending l) → ∃ out, L.merge ls = .ok out ∧ Ascending out ∧
    out.Perm ls.flatten

end Spec

namespace TDS.Gauss

open Spec

theorem isHeap_iff {h : List Entry} : IsHeap h ↔ HeapQ.HeapFrom Entry.lt 0 h := by
  constructor
  · intro hh i j _ hj hij
    rw [Entry.lt_false]
    have hi : i < h.length := by rcases hij with h | h <;> omega
    rw [List.getD_eq_getElem _ _ hi, List.getD_eq_getElem _ _ hj]
    refine hh i _ _ (List.getElem?_eq_getElem hi) ?_
    rcases hij with rfl | rfl
    · exact Or.inl (List.getElem?_eq_getElem hj)
    · exact Or.inr (List.getElem?_eq_getElem hj)
  · intro hh k a b ha hb
    have hc : ∃ j, HeapQ.Child k j ∧ h[j]? = some b := by
      rcases hb with hb | hb
      · exact ⟨_, Or.inl rfl, hb⟩
      · exact ⟨_, Or.inr rfl, hb⟩
    obtain ⟨j, hj, hb⟩ := hc
    have hjl : j < h.length := by
      rw [List.getElem?_eq_some_iff] at hb; exact hb.1
    have := hh k j (by omega) hjl hj
    rw [Entry.lt_false] at this
    simpa [List.getD_eq_getElem?_getD, ha, hb] using this

theorem Sorted.isHeap {l : List Entry} (h : Sorted l) : IsHeap l := by
  intro k a b ha hb
  unfold Sorted at h
  rw [List.pairwise_iff_getElem] at h
  obtain ⟨j, hkj, hj⟩ : ∃ j, k < j ∧ l[j]? = some b := by
    rcases hb with hb | hb
    · exact ⟨2 * k + 1, by omega, hb⟩
    · exact ⟨2 * k + 2, by omega, hb⟩
  rw [List.getElem?_eq_some_iff] at ha hj
  obtain ⟨h1, rfl⟩ := ha
  obtain ⟨h2, rfl⟩ := hj
  exact h k j h1 h2 hkj

section
variable {L : HeapLib} (D : HeapDoc L)
include D

theorem pop_ssort {h : List Entry} (hh : IsHeap h) (hne : h ≠ []) :
    ∃ x t, L.pop h = .ok (x, t) ∧ IsHeap t ∧ ssort h = x :: ssort t := by
  obtain ⟨x, t, h1, h2, h3, h4⟩ := D.pop h hh hne
  refine ⟨x, t, h1, h2, sorted_unique (ssort_sorted h) ?_ ?_⟩
  · unfold Sorted
    rw [List.pairwise_cons]
    exact ⟨fun y hy => h4 y (h3.mem_iff.1 (List.mem_cons_of_mem _ (mem_ssort.1 hy))),
      ssort_sorted t⟩
  · exact (ssort_perm h).trans (h3.symm.trans (List.Perm.cons x (ssort_perm t).symm))

theorem classify_eq (m : Entry) : ∀ (n : Nat) (h red same : List Entry), IsHeap h → h.length ≤ n →
    classify L m n h red same =
      .ok (red ++ ((ssort h).filter (isReducible m)).map (·.sub m),
        same ++ (ssort h).filter (fun e => !isReducible m e)) := by
  intro n
  induction n with
  | zero =>
    intro h red same _ hn
    have : h = [] := List.length_eq_zero_iff.1 (by omega)
    subst this
    simp [classify, ssort]
  | succ n ih =>
    intro h red same hh hn
    cases h with
    | nil => simp [classify, ssort]
    | cons a t =>
      obtain ⟨x, u, h1, h2, h3⟩ := pop_ssort D hh (by simp)
      have hl : u.length ≤ n := by
        have := congrArg List.length h3
        rw [(ssort_perm _).length_eq, List.length_cons, List.length_cons,
          (ssort_perm _).length_eq] at this
        simp only [List.length_cons] at hn
        omega
      rw [classify, h1, ok_bind, h3]
      simp only
      by_cases hr : isReducible m x = true
      · rw [if_pos hr, ih u _ _ h2 hl]
        simp [hr, Entry.sub]
      · rw [if_neg hr, ih u _ _ h2 hl]
        simp [hr]

theorem merge_two {a b : List Entry} (ha : Sorted a) (hb : Sorted b) :
    L.merge [a, b] = .ok (hmerge a b) := by
  obtain ⟨out, h1, h2, h3⟩ := D.merge [a, b] (by
    intro l hl
    rcases List.mem_cons.1 hl with rfl | hl
    · exact ha
    · rw [List.mem_singleton.1 hl]; exact hb)
  rw [h1, sorted_unique h2 (hmerge_sorted ha hb)
    (h3.trans (by simpa using (hmerge_perm a b).symm))]

theorem merge_three {a b c : List Entry} (ha : Sorted a) (hb : Sorted b) (hc : Sorted c) :
    L.merge [a, b, c] = .ok (hmerge (hmerge a b) c) := by
  obtain ⟨out, h1, h2, h3⟩ := D.merge [a, b, c] (by
    intro l hl
    simp only [List.mem_cons, List.not_mem_nil, or_false] at hl
    rcases hl with rfl | rfl | rfl
    · exact ha
    · exact hb
    · exact hc)
  rw [h1, sorted_unique h2 (hmerge_sorted (hmerge_sorted ha hb) hc)]
  refine h3.trans ?_
  refine List.Perm.trans ?_ (hmerge_perm _ _).symm
  simp only [List.flatten_cons, List.flatten_nil, List.append_nil]
  rw [← List.append_assoc]
  exact List.Perm.append_right c (hmerge_perm a b).symm

omit D in
theorem sub_sorted (m : Entry) {l : List Entry} (h : Sorted l) : Sorted (l.map (·.sub m)) := by
  unfold Sorted at *
  rw [List.pairwise_map]
  refine h.imp ?_
  intro a b hab
  rw [Entry.le_iff] at *
  simp only [Entry.sub]
  omega

theorem gaussStepL_eq {h : List Entry} (hh : IsHeap h) : gaussStepL L h = gaussStep h := by
  cases h with
  | nil => simp [gaussStepL, gaussStep, D.popEmpty, ssort]
  | cons a t =>
    obtain ⟨m, u, h1, h2, h3⟩ := pop_ssort D hh (by simp)
    have hso := ssort_sorted (a :: t)
    rw [h3] at hso
    unfold Sorted at hso
    rw [List.pairwise_cons] at hso
    have hu : Sorted (ssort u) := hso.2
    have hs1 : Sorted ((ssort u).filter (fun e => !isReducible m e)) := hu.filter _
    have hm : Sorted [m] := List.pairwise_singleton _ _
    have hr : Sorted (removeZeroKeys (((ssort u).filter (isReducible m)).map (·.sub m))) :=
      List.Pairwise.filter _ (sub_sorted m (hu.filter _))
    unfold gaussStepL gaussStep
    rw [h1, ok_bind, h3]
    simp only
    by_cases hk : m.k > 0
    · simp only [hk, decide_true, pyAssert_true, ok_bind]
      rw [classify_eq D m u.length u [] [] h2 (le_refl _), ok_bind]
      simp only [List.nil_append]
      have e : (fun e : Entry => (⟨e.k - m.k, e.i, e.v - m.v⟩ : Entry)) = (·.sub m) := rfl
      rw [e]
      split
      · rw [merge_two D hm hs1]; rfl
      · rw [merge_three D hm hr hs1]; rfl
    · simp [hk, pyAssert]

omit D in
theorem gaussStep_sorted {h h' : List Entry} {f : Bool} (hg : gaussStep h = .ok (f, h')) :
    Sorted h' := by
  cases hs : ssort h with
  | nil => simp [gaussStep, hs] at hg
  | cons m rest =>
    have hso := ssort_sorted h
    rw [hs] at hso
    unfold Sorted at hso
    rw [List.pairwise_cons] at hso
    have hu : Sorted rest := hso.2
    have hm : Sorted [m] := List.pairwise_singleton _ _
    by_cases hk : 0 < m.k
    · rw [gaussStep_of_pos hs hk] at hg
      split at hg
      · simp only [Except.ok.injEq, Prod.mk.injEq] at hg
        rw [← hg.2]
        exact hmerge_sorted hm (hu.filter _)
      · simp only [Except.ok.injEq, Prod.mk.injEq] at hg
        rw [← hg.2]
        exact hmerge_sorted (hmerge_sorted hm
          (List.Pairwise.filter _ (sub_sorted m (hu.filter _)))) (hu.filter _)
    · unfold gaussStep at hg
      simp [hs, hk] at hg

omit D in
theorem gaussStep_ssort (h : List Entry) : gaussStep (ssort h) = gaussStep h := by
  unfold gaussStep
  rw [ssort_of_sorted (ssort_sorted h)]

omit D in
theorem elimLoop_cons (n : Nat) (hs h : List Entry) (hne : h ≠ []) :
    elimLoop (n + 1) hs h = (do
      let (simplified, hd') ← gaussStep h
      if simplified then elimLoop n [] (hmerge hs hd')
      else match ssort hd' with
        | [] => .error .index
        | m :: rest => elimLoop n (hs ++ [m]) rest) := by
  cases h with
  | nil => exact absurd rfl hne
  | cons a t => rfl

omit D in
theorem elimLoopL_cons (n : Nat) (hs h : List Entry) (hne : h ≠ []) :
    elimLoopL L (n + 1) hs h = (do
      let (simplified, hd) ← gaussStepL L h
      if simplified then
        let temp ← L.merge [hs, hd]
        elimLoopL L n [] temp
      else
        let (m, hd) ← L.pop hd
        elimLoopL L n (hs ++ [m]) hd) := by
  cases h with
  | nil => exact absurd rfl hne
  | cons a t => rfl

theorem elimLoopL_eq : ∀ (n : Nat) (hs h : List Entry), IsHeap h → Sorted (hs ++ ssort h) →
    elimLoopL L n hs h = elimLoop n hs (ssort h) := by
  intro n
  induction n with
  | zero =>
    intro hs h _ _
    cases h with
    | nil => simp [elimLoopL, elimLoop, ssort]
    | cons a t =>
      obtain ⟨b, u, hb⟩ : ∃ b u, ssort (a :: t) = b :: u := by
        cases he : ssort (a :: t) with
        | nil => have := (ssort_perm (a :: t)).length_eq; simp [he] at this
        | cons b u => exact ⟨b, u, rfl⟩
      rw [hb]; simp [elimLoopL, elimLoop]
  | succ n ih =>
    intro hs h hh hsort
    by_cases hne : h = []
    · subst hne; simp [elimLoopL, elimLoop, ssort]
    have hne' : ssort h ≠ [] := by
      intro he
      have := (ssort_perm h).length_eq
      rw [he] at this
      exact hne (List.length_eq_zero_iff.1 this.symm)
    rw [elimLoop_cons n hs _ hne', elimLoopL_cons n hs h hne, gaussStepL_eq D hh,
      gaussStep_ssort]
    cases hg : gaussStep h with
    | error e => rfl
    | ok r =>
      obtain ⟨f, h'⟩ := r
      have hs' := gaussStep_sorted hg
      have hhs : Sorted hs := (List.pairwise_append.1 hsort).1
      simp only [ok_bind]
      cases f with
      | true =>
        rw [if_pos rfl, if_pos rfl, merge_two D hhs hs', ok_bind]
        have hm := hmerge_sorted hhs hs'
        rw [ih [] _ hm.isHeap (by simpa using ssort_sorted _), ssort_of_sorted hm]
      | false =>
        rw [if_neg (by simp), if_neg (by simp)]
        obtain ⟨m, rest, e1, e2, _⟩ := gaussStep_false hg
        obtain ⟨x, t, p1, p2, p3⟩ := pop_ssort D (h := h') hs'.isHeap (by simp [e2])
        rw [p1, ok_bind, p3]
        simp only
        refine ih _ _ p2 ?_
        rw [ssort_of_sorted hs', e2, ← e1] at p3
        rw [List.append_assoc, List.singleton_append, ← p3]
        exact hsort

end

end TDS.Gauss

namespace TDS

open Spec Gauss

/-- **C57.** Whatever `heapq` it runs on, as long as `heappop` and `merge` do what their
documentation says, `_elim` returns what the model of the elimination returns: every list it pops
from is a heap, every list it merges is sorted. -/
theorem C57_heap {L : HeapLib} (D : HeapDoc L) (hd : List Entry) : elimListL L hd = elimList hd := by
  unfold elimListL elimList
  simp only
  split
  · rfl
  · have h := ssort_sorted (removeZeroKeys hd)
    rw [elimLoopL_eq D _ _ _ h.isHeap (by simpa using ssort_sorted _), ssort_of_sorted h]

/-- **C57, CPython.** The `heapq` of CPython does what its documentation says. -/
theorem C57_cpython : HeapDoc cpython where
  popEmpty := rfl
  pop := by
    intro h hh hne
    obtain ⟨x, t, h1, h2, h3, _, h5⟩ :=
      HeapQ.heappop_spec Entry.linear.toTotal (isHeap_iff.1 hh) hne
    exact ⟨x, t, h1, isHeap_iff.2 h2, h3, fun y hy => Entry.lt_false.1 (h5 y hy)⟩
  merge := by
    intro ls hs
    obtain ⟨out, h1, h2, h3⟩ := HeapQ.merge_spec Entry.linear
      (fun l hl => sorted_iff.2 (hs l hl))
    exact ⟨out, h1, sorted_iff.1 h2, h3⟩

/-- **C57, sift.** CPython's `heapify` makes a heap out of any list, without losing an entry. -/
theorem C57_heapify (h : List Entry) :
    IsHeap (HeapQ.heapify Entry.lt h) ∧ (HeapQ.heapify Entry.lt h).Perm h :=
  ⟨isHeap_iff.2 (HeapQ.heapify_spec Entry.linear.toTotal h).1,
    (HeapQ.heapify_spec Entry.linear.toTotal h).2⟩

/-! ### the hypotheses are met, and they are needed -/

/-- A sorted list of four entries; the list `heappop` leaves is a heap and not sorted. -/
example : HeapQ.heappop Entry.lt [⟨1, 0, 0⟩, ⟨2, 1, 0⟩, ⟨3, 2, 0⟩, ⟨4, 3, 0⟩, ⟨5, 4, 0⟩] =
    .ok (⟨1, 0, 0⟩, [⟨2, 1, 0⟩, ⟨4, 3, 0⟩, ⟨3, 2, 0⟩, ⟨5, 4, 0⟩]) := by decide +kernel

/-- Popping a list that is not a heap does not return the least entry. -/
example : HeapQ.heappop Entry.lt [⟨2, 0, 0⟩, ⟨1, 1, 0⟩] = .ok (⟨2, 0, 0⟩, [⟨1, 1, 0⟩]) := by
  decide +kernel

/-- Merging lists that are not sorted does not sort. -/
example : HeapQ.merge Entry.lt [[⟨2, 0, 0⟩, ⟨1, 1, 0⟩], [⟨3, 2, 0⟩]] =
    .ok [⟨2, 0, 0⟩, ⟨1, 1, 0⟩, ⟨3, 2, 0⟩] := by decide +kernel

/-- The example of /repo/srg/gauss_elim.py:148-165 run on CPython's heap. -/
example : elimListL cpython [⟨31, 0, 5⟩, ⟨24, 1, 2⟩, ⟨6, 2, 2⟩, ⟨30, 3, 4⟩, ⟨21, 4, 3⟩] =
    .ok [⟨1, 0, 1⟩, ⟨6, 2, 2⟩, ⟨20, 4, 2⟩, ⟨24, 1, 2⟩] := by
  rw [C57_heap C57_cpython]; decide +kernel

/-- A library whose `heappop` takes the first entry and leaves the others as they are would do on
sorted lists, but is not one of those the theorem speaks of: it breaks the heap. -/
example : ¬ HeapDoc ⟨fun | [] => .error .index | x :: t => .ok (x, t), cpython.merge⟩ := by
  intro D
  obtain ⟨x, t, h1, h2, _, _⟩ := D.pop [⟨1, 0, 0⟩, ⟨3, 0, 0⟩, ⟨2, 0, 0⟩]
    (by
      intro k a b ha hb
      match k with
      | 0 => rcases hb with hb | hb <;> simp at ha hb <;> subst ha <;> subst hb <;> decide
      | k + 1 => rcases hb with hb | hb <;> simp at hb <;> omega)
    (by simp)
  simp only [Except.ok.injEq, Prod.mk.injEq] at h1
  obtain ⟨_, rfl⟩ := h1
  exact absurd (h2 0 ⟨3, 0, 0⟩ ⟨2, 0, 0⟩ rfl (Or.inl rfl)) (by decide)

end TDS
