import Verif.Proof.Idem
import Verif.Props.Classify

/-! C50: `maximize` applied twice, and applied to results of the search. -/

namespace TDS

open Sorter

/-- Whenever `maximize` returns, some vertex is not adjacent to vertex 0. -/
theorem zero_of_maximize {argsort : Vec → List Nat} (ha : IsArgsort argsort) {v : Nat} {A M : Mat}
    (hs : Spec.Square v A) (h : maximize argsort A = .ok M) :
    ∃ j, 1 ≤ j ∧ j < v ∧ Spec.ent A 0 j = 0 := by
  by_contra hz
  rw [maximize_typeErr ha hs (C25_relabels ha hs h).2.2.1 (fun j a b c => hz ⟨j, a, b, c⟩)] at h
  simp at h

theorem isAdj_symmetric {v : Nat} {A : Mat} (h : Spec.IsAdj v A) : Spec.Symmetric v A :=
  fun i hi j hj => h.sym.sym i (by rw [h.square]; exact hi) j (by rw [h.square]; exact hj)

/-- **C50.**  When `argsort` leaves sorted input alone, a second `maximize` changes nothing. -/
theorem C50_idempotent {argsort : Vec → List Nat} (ha : IsArgsort argsort)
    (hk : ∀ a : Vec, a.Pairwise (· ≤ ·) → argsort a = List.range a.length) {v : Nat} {A M : Mat}
    (hs : Spec.Square v A) (hb : ∀ r ∈ A, Spec.Bin r) (h : maximize argsort A = .ok M) :
    maximize argsort M = .ok M :=
  maximize_again ha hk hs (C25_relabels ha hs h).2.2.1 hb (zero_of_maximize ha hs h) h

/-- **C50**, other tie-breaking: with ties broken from the right, `maximize` can alternate between
two numberings for ever. -/
theorem C50_ties : IsArgsort revArgsort ∧ ∃ A B : Mat, A ≠ B ∧ Spec.IsAdj 4 A ∧ Spec.IsAdj 4 B ∧
    maximize revArgsort A = .ok B ∧ maximize revArgsort B = .ok A := by
  refine ⟨isArgsort_rev, middleEdge, [[0, 0, 0, 0], [0, 0, 0, 0], [0, 0, 0, 1], [0, 0, 1, 0]],
    by decide, ?_, ?_, by decide +kernel, by decide +kernel⟩ <;>
  · exact ⟨⟨by decide, by unfold Spec.Bin; decide, by decide⟩, by decide, ⟨by decide, by decide⟩⟩

/-- **C50, justified matrices.**  A graph matrix whose rows are justified to the left is left alone,
unless vertex 0 is adjacent to all others (C27). -/
theorem C50_justified {argsort : Vec → List Nat} (ha : IsArgsort argsort)
    (hk : ∀ a : Vec, a.Pairwise (· ≤ ·) → argsort a = List.range a.length) {v : Nat} {A : Mat}
    (hA : Spec.IsAdj v A) (hz : ∃ j, 1 ≤ j ∧ j < v ∧ Spec.ent A 0 j = 0)
    (hj : Spec.Justified v A) : maximize argsort A = .ok A :=
  maximize_just ha hk ⟨hA.square, hA.part.rect⟩ (isAdj_symmetric hA) hA.part.bin
    hz hj

/-- **C50, results of the search.**  Every matrix the search returns, strongly regular or not, is
left alone. -/
theorem C50_search {argsort : Vec → List Nat} (ha : IsArgsort argsort)
    (hk : ∀ a : Vec, a.Pairwise (· ≤ ·) → argsort a = List.range a.length) {v : Nat} (hv : 3 ≤ v)
    (hv' : v ≤ 66) {k l u : Int} (hkl : (0 ≤ l ∧ l < k) ∨ (k = 0 ∧ l = 0)) (hkv : k + 1 < v)
    {out : List Mat} (ho : IsOutput v k l u out) : ∀ m ∈ out, maximize argsort m = .ok m := by
  intro m hm
  obtain ⟨h1, h2⟩ := C03_structure hv hv' hkl ho m hm
  rw [seed_eq (by omega)] at h2
  refine C50_justified ha hk h1 ⟨v - 1, by omega, by omega, ?_⟩
    (output_justified hv hv' (by omega) (by omega) (by omega) ho m hm)
  simp only [Except.ok.injEq] at h2
  have : m.getD 0 [] = seed0 v k := by
    match m, h2 with
    | a :: b :: t, h2 => simpa using (List.cons.inj h2).1.symm
  unfold Spec.ent
  rw [this]
  rw [seed0_getD (by omega), if_neg]
  unfold pyIdx
  split <;> omega

/-- **C50, stored solutions.**  Every stored matrix is left alone. -/
theorem C50_stored {argsort : Vec → List Nat} (ha : IsArgsort argsort)
    (hk : ∀ a : Vec, a.Pairwise (· ≤ ·) → argsort a = List.range a.length) {v k l u : Nat}
    {sols : List Mat} (h : Database.getSolutions Database.modules v k l u = .ok sols) :
    ∀ m ∈ sols, maximize argsort m = .ok m := by
  obtain ⟨name, rows, he, -⟩ := get_entry h
  have hg := entry_good he
  obtain ⟨-, -, -, -, -, hne, -⟩ := good_entry _ he
  have h1 := hg.lk
  have h2 := hg.kv
  have h3 := hg.v3
  have h66 := hg.v66
  simp only at h1 h2 hne h3 h66
  obtain ⟨s, out, h5, h4⟩ := C05_total h3 h66 (k : Int) l u
  have ho : IsOutput v k l u out := ⟨s, h5, h4⟩
  intro m hm
  exact C50_search ha hk h3 h66 (Or.inl ⟨by simp, h1⟩) (by omega) ho m
    (C45_found_again h ho m hm)

/-- A numbering of the Petersen graph. -/
def petersenA : Mat :=
  [[0, 0, 0, 0, 0, 1, 1, 1, 0, 0], [0, 0, 1, 0, 0, 1, 0, 0, 0, 1], [0, 1, 0, 0, 0, 0, 1, 0, 1, 0],
   [0, 0, 0, 0, 1, 1, 0, 0, 1, 0], [0, 0, 0, 1, 0, 0, 1, 0, 0, 1], [1, 1, 0, 1, 0, 0, 0, 0, 0, 0],
   [1, 0, 1, 0, 1, 0, 0, 0, 0, 0], [1, 0, 0, 0, 0, 0, 0, 0, 1, 1], [0, 0, 1, 1, 0, 0, 0, 1, 0, 0],
   [0, 1, 0, 0, 1, 0, 0, 1, 0, 0]]

/-- What `maximize` makes of it. -/
def petersenB : Mat :=
  [[0, 1, 1, 1, 0, 0, 0, 0, 0, 0], [1, 0, 0, 0, 1, 1, 0, 0, 0, 0], [1, 0, 0, 0, 0, 0, 1, 1, 0, 0],
   [1, 0, 0, 0, 0, 0, 0, 0, 1, 1], [0, 1, 0, 0, 0, 0, 1, 0, 0, 1], [0, 1, 0, 0, 0, 0, 0, 1, 1, 0],
   [0, 0, 1, 0, 1, 0, 0, 0, 1, 0], [0, 0, 1, 0, 0, 1, 0, 0, 0, 1], [0, 0, 0, 1, 0, 1, 1, 0, 0, 0],
   [0, 0, 0, 1, 1, 0, 0, 1, 0, 0]]

theorem petersenB_srg : Spec.IsSRG 10 3 0 1 petersenB := by
  rw [isSRG_iff]
  refine ⟨⟨by decide, by decide⟩, by decide, by decide, by decide, by decide +kernel,
    by decide +kernel⟩

/-- **C50, not conversely.**  What `maximize` returns for a strongly regular graph need not be among
the results of the search, so looking it up in a stored list can fail even though the graph is
there. -/
theorem C50_not_found : Spec.Square 10 petersenA ∧ (∀ r ∈ petersenA, Spec.Bin r) ∧
    maximize stableArgsort petersenA = .ok petersenB ∧ Spec.IsSRG 10 3 0 1 petersenB ∧
    (∀ out, IsOutput 10 3 0 1 out → petersenB ∉ out) ∧
    ∀ sols, Database.getSolutions Database.modules 10 3 0 1 = .ok sols → petersenB ∉ sols ∧
      ∃ m ∈ sols, Spec.Relabels 10 m petersenB := by
  have hj : ¬ Spec.Justified 10 petersenB := by
    intro h
    have := h 4 (by omega) 8 9 (by decide) (by omega) (by omega) (by unfold Spec.ColEq; decide)
    revert this
    decide
  have hno : ∀ out, IsOutput 10 3 0 1 out → petersenB ∉ out := fun out ho hm =>
    hj ((C44_exact (by omega) (by omega) (by omega) ho petersenB_srg).1 hm)
  refine ⟨⟨by decide, by decide⟩, by unfold Spec.Bin; decide, by decide +kernel, petersenB_srg,
    hno, ?_⟩
  intro sols h
  refine ⟨?_, ?_⟩
  · intro hm
    exact hj (stored_justified (v := 10) (k := 3) (l := 0) (u := 1) h _ hm)
  · exact Complete.relabels (C45_complete (v := 10) (k := 3) (l := 0) (u := 1) (by decide) h)
      (C41_stored_srg (v := 10) (k := 3) (l := 0) (u := 1) h).2 petersenB_srg

/-- Non-vacuity: a numbering of the pentagon that changes once and then stays. -/
example : maximize stableArgsort pentagon' = .ok pentagon ∧ pentagon' ≠ pentagon ∧
    maximize stableArgsort pentagon = .ok pentagon := by
  refine ⟨by decide +kernel, by decide, by decide +kernel⟩

/-- Non-vacuity: `stableArgsort` meets the hypotheses, and the search for (10, 3, 0, 1) has a result. -/
example : IsArgsort stableArgsort ∧
    (∀ a : Vec, a.Pairwise (· ≤ ·) → stableArgsort a = List.range a.length) ∧
    ∃ sols, Database.getSolutions Database.modules 10 3 0 1 = .ok sols ∧ sols.length = 1 :=
  ⟨isArgsort_stable, stable_keeps, _, rfl, rfl⟩

end TDS
