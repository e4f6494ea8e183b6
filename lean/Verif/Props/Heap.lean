import Verif.Proof.Heap
import Verif.Proof.Tree
import Verif.Props.Rows

/-! C39: snapshots and children are private copies. -/

namespace TDS

namespace Spec

/-- Addresses of the one-dimensional arrays of a question. -/
def arrays (q : Mem.QRef) : List Nat := [q.b, q.bounds, q.v, q.loc]

/-- The arrays of `q` exist and are different from each other. -/
def Placed (h : Mem.Heap) (q : Mem.QRef) : Prop :=
  q.A < h.mats.length ∧ (∀ a ∈ arrays q, a < h.vecs.length) ∧ (arrays q).Nodup

/-- Two questions have no array in common. -/
def Apart (q q' : Mem.QRef) : Prop := q.A ≠ q'.A ∧ ∀ a ∈ arrays q, a ∉ arrays q'

/-- Every array of `h` still has its contents in `h'`. -/
def Intact (h h' : Mem.Heap) : Prop :=
  (∀ a < h.vecs.length, h'.vecs[a]? = h.vecs[a]?) ∧ ∀ a < h.mats.length, h'.mats[a]? = h.mats[a]?

/-- Shapes and signs of a question agree. -/
structure Fits (Q : Question) : Prop where
  rect : ∀ r ∈ Q.A, r.length = Q.bounds.length
  rows : Q.b.length = Q.A.length
  cols : Q.bounds.length = ncols Q.A
  rhs : ∀ x ∈ Q.b, 0 ≤ x
  bounds : ∀ x ∈ Q.bounds, 0 ≤ x
  quota : 0 ≤ Q.quota
  ans : Answer.mk' Q.ans.v Q.ans.loc Q.ans.len = .ok Q.ans

end Spec

namespace Mem

theorem fits_iff {Q : Question} : Spec.Fits Q ↔ WF Q :=
  ⟨fun f => ⟨fun r hr => (f.rect r hr).trans f.cols, f.rows, f.cols, f.rhs, f.bounds, f.quota, f.ans⟩,
   fun w => ⟨fun r hr => (w.rect r hr).trans w.bdlen.symm, w.blen, w.bdlen, w.b0, w.bd0, w.quota0,
    w.ans⟩⟩

theorem placed_iff {h : Heap} {q : QRef} : Spec.Placed h q ↔ Own h q :=
  ⟨fun p => ⟨p.1, p.2.1, p.2.2⟩, fun o => ⟨o.mat, o.lt, o.nodup⟩⟩

theorem Ext.intact {h h' : Heap} (e : Ext [] h h') : Spec.Intact h h' := by
  constructor
  · intro a ha
    have h1 := e.vec a ha (by simp)
    have h2 : a < h'.vecs.length := lt_of_lt_of_le ha e.nv
    unfold Heap.vec at h1
    rw [List.getD_eq_getElem _ _ ha, List.getD_eq_getElem _ _ h2] at h1
    rw [List.getElem?_eq_getElem ha, List.getElem?_eq_getElem h2, h1]
  · intro a ha
    have h1 := e.mat a ha
    have h2 : a < h'.mats.length := lt_of_lt_of_le ha e.nm
    unfold Heap.mat at h1
    rw [List.getD_eq_getElem _ _ ha, List.getD_eq_getElem _ _ h2] at h1
    rw [List.getElem?_eq_getElem ha, List.getElem?_eq_getElem h2, h1]

end Mem

open Mem

/-- **C39, reachable questions.**  The question of a rectangular matrix fits, every completed pass
keeps that, and so does forking. -/
theorem C39_reachable :
    (∀ (m : Mat) (Q : Question), (∀ r ∈ m, r.length = ncols m) → fromMatrix m = .ok Q → Spec.Fits Q) ∧
    (∀ Q Q' : Question, Spec.Fits Q → reducePass Q = .ok Q' → Spec.Fits Q') ∧
    (∀ (Q : Question) (Qs : List Question), Spec.Fits Q → forkEnum Q = .ok Qs →
      ∀ Q' ∈ Qs, Spec.Fits Q') := by
  refine ⟨fun m Q hr h => fits_iff.2 (fromMatrix_wf hr h), fun Q Q' f h =>
    fits_iff.2 (keeps_pass _ _ (fits_iff.1 f) h), fun Q Qs f h Q' hQ' => ?_⟩
  obtain ⟨q, h1, -, -, o, d⟩ := placeH_run ⟨[], []⟩ Q
  have := (forkEnumH_run o (by rw [d]; exact fits_iff.1 f)).2
  rw [d, h] at this
  rcases hx : (forkEnumH q h1).1 with e | qs <;> rw [hx] at this
  · exact this.elim
  · exact fits_iff.2 (this.2 Q' hQ')

/-- **C39, snapshots.**  `Q.copy()` succeeds, its arrays are all new, and the pass that follows
leaves it as it was, whether the pass completes or raises; so `Q == Qdummy` compares the state after
the pass with the state before it. -/
theorem C39_snapshot {h : Heap} {q : QRef} (p : Spec.Placed h q) (f : Spec.Fits (deref h q)) :
    ∃ d h1, copyH q h = (.ok d, h1) ∧ Spec.Intact h h1 ∧ Spec.Placed h1 d ∧ Spec.Apart q d ∧
      deref h1 d = deref h q ∧ deref (passH q h1).2 d = deref h q ∧
      (passH q h1).1.map (deref (passH q h1).2) = reducePass (deref h q) := by
  have o := placed_iff.1 p
  have w := fits_iff.1 f
  obtain ⟨d, h1, hd, e1, od, dd, dn, dA⟩ := copyH_run o w
  have d1 : deref h1 q = deref h q := deref_ext o e1 (by simp)
  obtain ⟨e2, a⟩ := sim_pass h1 q (o.ext e1) (by rw [d1]; exact w)
  refine ⟨d, h1, hd, e1.intact, placed_iff.2 od, ⟨?_, ?_⟩, dd, ?_, ?_⟩
  · have := o.mat
    omega
  · intro a ha hb
    have h1 := dn a hb
    have h2 := o.lt a ha
    omega
  · rw [deref_ext od e2, dd]
    intro a ha hq
    have h1 := dn a ha
    have h2 := o.lt a hq
    omega
  · rw [d1] at a
    rcases hx : (passH q h1).1 with e | q1 <;> rcases hy : reducePass (deref h q) with e' | Q1 <;>
      rw [hx, hy] at a <;> simp only at a
    · rw [a]; rfl
    · rw [← a.1]; rfl

/-- **C39, children.**  `fork_enum` writes no existing array; its children are the ones of the value
model, and they share nothing with the parent or with each other. -/
theorem C39_children {h : Heap} {q : QRef} (p : Spec.Placed h q) (f : Spec.Fits (deref h q))
    {qs : List QRef} {h' : Heap} (hf : forkEnumH q h = (.ok qs, h')) :
    Spec.Intact h h' ∧ forkEnum (deref h q) = .ok (qs.map (deref h')) ∧
      (∀ c ∈ qs, Spec.Placed h' c ∧ Spec.Apart q c) ∧ qs.Pairwise Spec.Apart := by
  have o := placed_iff.1 p
  obtain ⟨e, a⟩ := forkEnumH_run o (fits_iff.1 f)
  rw [hf] at a e
  rcases hy : forkEnum (deref h q) with e' | Qs <;> rw [hy] at a <;> simp only at a e
  obtain ⟨k, -⟩ := a
  refine ⟨e.intact, by rw [k.deref], ?_, k.apart.imp (fun hcd => ⟨hcd.2, hcd.1⟩)⟩
  intro c hc
  refine ⟨placed_iff.2 (k.own c hc), ?_, ?_⟩
  · have h1 := k.newM c hc
    have h2 := o.mat
    omega
  · intro a ha hb
    have h1 := k.new c hc a hb
    have h2 := o.lt a ha
    omega

/-- **C39, later writes.**  Treating one question — all its passes and its fork, also when they end
in NoSolution — leaves every other question that shares no array with it as it was. -/
theorem C39_frame {h : Heap} {q c : QRef} (p : Spec.Placed h q) (f : Spec.Fits (deref h q))
    (pc : Spec.Placed h c) (ha : Spec.Apart q c) : deref (visitH q h).2 c = deref h c := by
  obtain ⟨e, -⟩ := visitH_run (placed_iff.1 p) (fits_iff.1 f)
  exact deref_ext (placed_iff.1 pc) e (fun a ha' hq => ha.2 a hq ha')

/-- **C39, whole search.**  With arrays in memory the search returns what the value model returns,
and every array that existed before (the matrix being extended in particular) is unchanged. -/
theorem C39_search {m : Mat} (hr : ∀ r ∈ m, r.length = ncols m) {Q : Question}
    (hQ : fromMatrix m = .ok Q) (h : Heap) (n : Nat) :
    (solveQuestionH n Q h).1 = solveLoop n [Q] ∧ Spec.Intact h (solveQuestionH n Q h).2 ∧
    ∀ rows, solveQuestion Q = .ok rows → ∃ N, ∀ n, N ≤ n → (solveQuestionH n Q h).1 = .ok rows := by
  have w := fromMatrix_wf hr hQ
  refine ⟨solveQuestionH_run w h, (solveQuestionH_ext w h).intact, fun rows hrows => ?_⟩
  obtain ⟨N, hN⟩ := solveLoop_eq_tree hrows
  exact ⟨N, fun n hn => by rw [solveQuestionH_run w h, hN n hn]⟩

/-- **C39 for the search itself**: on every 0/1 partial matrix with at most 66 columns the search in
memory ends, without an exception. -/
theorem C39_total {v : Nat} {m : Mat} (h : Spec.Part v m) (h2 : 2 ≤ m.length) (hlt : m.length < v)
    (hv : v ≤ 66) {Q : Question} (hQ : fromMatrix m = .ok Q) (hp : Heap) :
    ∃ rows N, solveQuestion Q = .ok rows ∧ ∀ n, N ≤ n → (solveQuestionH n Q hp).1 = .ok rows := by
  obtain ⟨rows, h1, -⟩ := C09_rows_nodup h h2 hlt hv hQ
  have hne : m ≠ [] := by rintro rfl; simp at h2
  have hr : ∀ r ∈ m, r.length = ncols m := by
    intro r hr
    rw [part_ncols h hne]; exact h.1 r hr
  obtain ⟨-, -, h3⟩ := C39_search hr hQ hp 0
  obtain ⟨N, hN⟩ := h3 rows h1
  exact ⟨rows, N, h1, hN⟩

/-! ### Non-vacuity -/

/-- The steps do write arrays in place: after a pass on a question with one column, its old
addresses show other contents.  A shallow copy would therefore not do as a snapshot. -/
example : ((do
    let q ← placeH ⟨[[1]], [0], 0, [1], ⟨[-1], [0], 1⟩⟩
    let before ← readQ q
    let _ ← passH q
    let after ← readQ q
    pure (decide (before = after)) : HM Bool) ⟨[], []⟩).1 = .ok false := by
  decide +kernel

/-- With the deep copy of the program the snapshot keeps the contents. -/
example : ((do
    let q ← placeH ⟨[[1]], [0], 0, [1], ⟨[-1], [0], 1⟩⟩
    let before ← readQ q
    let d ← copyH q
    let _ ← passH q
    let after ← readQ d
    pure (decide (before = after)) : HM Bool) ⟨[], []⟩).1 = .ok true := by
  decide +kernel

/-- The hypotheses hold for the question after two rows of the pentagon, and the search in memory
finds its row. -/
example : (match fromMatrix [[0, 1, 1, 0, 0], [1, 0, 0, 1, 0]] with
    | .ok Q => (solveQuestionH 5 Q ⟨[[7]], []⟩).1
    | .error e => .error e) = .ok [[0, 1]] := by
  decide +kernel

/-- Two children of one parent in memory. -/
example : ((do
    let q ← placeH ⟨[[1, 1]], [1], 1, [1, 1], ⟨[-1, -1], [0, 1], 2⟩⟩
    forkEnumH q : HM (List QRef)) ⟨[], []⟩).1 =
      .ok [⟨2, 5, 8, 6, 7, 1, 2⟩, ⟨3, 9, 12, 10, 11, 0, 2⟩] := by
  decide +kernel

end TDS
