import Verif.Proof.Maximize
import Verif.Props.Utils
import Verif.Props.Unique

/-! C24–C27: canonical order of matrices and `maximize`. -/

namespace TDS

open Sorter

/-! ### C24 -/

/-- C24: `sort` rearranges its input into nondecreasing order of the entries right of the
diagonal, read row by row. -/
theorem C24_sorted {v : Nat} (hv : 1 ≤ v) {lst : List Mat} (h : ∀ m ∈ lst, Spec.Square v m) :
    ∃ out, Sorter.sort lst = .ok out ∧ out.Perm lst ∧
      out.Pairwise (fun a b => ¬ Spec.UpperLT v b a) := by
  refine ⟨lst.foldr insertBy [], ?_, foldr_perm lst, foldr_sorted h⟩
  unfold Sorter.sort
  rw [if_neg]
  rintro ⟨-, ha⟩
  rw [List.any_eq_true] at ha
  obtain ⟨m, hm, he⟩ := ha
  have := (h m hm).rows
  rw [List.isEmpty_iff] at he
  rw [he] at this
  simp at this
  omega

theorem upperEq_eq {v : Nat} {a b : Mat} (ha : Spec.Square v a) (hb : Spec.Square v b)
    (ha1 : Spec.Symmetric v a) (hb1 : Spec.Symmetric v b) (ha0 : ∀ i < v, Spec.ent a i i = 0)
    (hb0 : ∀ i < v, Spec.ent b i i = 0) (h : Spec.UpperEq v a b) : a = b := by
  refine square_ext ha hb ?_
  intro i hi j hj
  rcases Nat.lt_trichotomy i j with hlt | rfl | hgt
  · exact h i j hlt hj
  · rw [ha0 i hi, hb0 i hi]
  · rw [ha1 i hi j hj, hb1 i hi j hj]; exact h j i hgt hi

/-- C24: for symmetric matrices with zero diagonal there is only one sorted rearrangement, and
`sort` returns it. -/
theorem C24_unique {v : Nat} (hv : 1 ≤ v) {lst out : List Mat} (h : ∀ m ∈ lst, Spec.Square v m)
    (hsym : ∀ m ∈ lst, Spec.Symmetric v m) (hdiag : ∀ m ∈ lst, ∀ i < v, Spec.ent m i i = 0)
    (hp : out.Perm lst) (hs : out.Pairwise (fun a b => ¬ Spec.UpperLT v b a)) :
    Sorter.sort lst = .ok out := by
  obtain ⟨o, h1, h2, h3⟩ := C24_sorted hv h
  rw [h1]
  congr 1
  have hpp : o.Perm out := h2.trans hp.symm
  refine hpp.eq_of_pairwise ?_ h3 hs
  intro a b ha hb h4 h5
  have ha' := h2.mem_iff.1 ha
  have hb' := hp.mem_iff.1 hb
  rcases upper_trichotomy (h a ha') (h b hb') with h6 | h6 | h6
  · exact absurd h6 h5
  · exact upperEq_eq (h a ha') (h b hb') (hsym a ha') (hsym b hb') (hdiag a ha') (hdiag b hb') h6
  · exact absurd h6 h4

/-- C24: the result does not depend on the order of the input. -/
theorem C24_canonical {v : Nat} (hv : 1 ≤ v) {lst lst' : List Mat}
    (h : ∀ m ∈ lst, Spec.Square v m) (hsym : ∀ m ∈ lst, Spec.Symmetric v m)
    (hdiag : ∀ m ∈ lst, ∀ i < v, Spec.ent m i i = 0) (hp : lst.Perm lst') :
    Sorter.sort lst = Sorter.sort lst' := by
  obtain ⟨o, h1, h2, h3⟩ := C24_sorted hv (fun m hm => h m (hp.mem_iff.2 hm))
  rw [h1]
  exact C24_unique hv h hsym hdiag (h2.trans hp.symm) h3

/-- The pentagon with another numbering. -/
def pentagon' : Mat :=
  [[0, 1, 0, 0, 1], [1, 0, 1, 0, 0], [0, 1, 0, 1, 0], [0, 0, 1, 0, 1], [1, 0, 0, 1, 0]]

example : Sorter.sort [pentagon, pentagon'] = .ok [pentagon', pentagon] ∧
    Sorter.sort [pentagon', pentagon] = .ok [pentagon', pentagon] := by decide +kernel

/-- Symmetry is needed for independence of the input order: entries left of the diagonal are not
compared. -/
example : Sorter.sort [[[0, 1], [0, 0]], [[0, 1], [1, 0]]] ≠
    Sorter.sort [[[0, 1], [1, 0]], [[0, 1], [0, 0]]] := by decide +kernel

/-! ### C25 -/

theorem sortRow_ok {argsort : Vec → List Nat} (ha : IsArgsort argsort) {v : Nat} {M S : Mat}
    (hs : Spec.Square v M) {row c0 c1 : Nat} {d : Option Nat} (hv : c1 ≤ v)
    (h : sortRow argsort M row c0 (some c1) = .ok (S, d)) :
    Spec.Square v S ∧ Spec.Relabels v M S ∧ (∀ x, d = some x → x ≤ v) ∧
      (row < c0 → c0 < c1 → Spec.Symmetric v M) := by
  by_cases hr : row < c0
  · by_cases hc : c0 < c1
    · obtain ⟨g1, g2⟩ := sortRow_step ha hs hr hc hv
      by_cases hsym : Spec.Symmetric v M
      · obtain ⟨S', d', g3, g4⟩ := g2 hsym
        rw [g3] at h
        simp only [Except.ok.injEq, Prod.mk.injEq] at h
        obtain ⟨rfl, rfl⟩ := h
        exact ⟨g4.square, g4.relabels, fun x hx => by have := g4.first x hx; omega,
          fun _ _ => hsym⟩
      · rw [g1 hsym] at h; simp at h
    · unfold sortRow at h
      rw [if_neg (by omega)] at h
      simp only at h
      rw [if_pos (by omega)] at h
      simp only [Except.ok.injEq, Prod.mk.injEq] at h
      obtain ⟨rfl, rfl⟩ := h
      exact ⟨hs, relabels_refl _ _, by simp, fun _ h' => absurd h' hc⟩
  · unfold sortRow at h
    rw [if_pos (by omega)] at h
    simp only [Except.ok.injEq, Prod.mk.injEq] at h
    obtain ⟨rfl, rfl⟩ := h
    exact ⟨hs, relabels_refl _ _, by simp, fun h' => absurd h' hr⟩

theorem divSort_ok {argsort : Vec → List Nat} (ha : IsArgsort argsort) {v : Nat} {M S : Mat}
    {si : Instr} {sii : List Instr} (hs : Spec.Square v M) (hc : si.c1 ≤ v)
    (hd : ∀ x, si.di = some x → x ≤ v) (h : divSort argsort M si = .ok (S, sii)) :
    Spec.Square v S ∧ Spec.Relabels v M S ∧
      ∀ t ∈ sii, t.c1 ≤ v ∧ ∀ x, t.di = some x → x ≤ v := by
  obtain ⟨r, c0, c1, di⟩ := si
  simp only at hc hd
  unfold divSort at h
  simp only at h
  rw [bind_eq_ok] at h
  obtain ⟨⟨M1, d1⟩, h1, h⟩ := h
  cases di with
  | none => simp at h
  | some di =>
    simp only at h
    rw [bind_eq_ok] at h
    obtain ⟨⟨M2, d2⟩, h2, h⟩ := h
    simp only [Except.ok.injEq, Prod.mk.injEq] at h
    obtain ⟨rfl, rfl⟩ := h
    have hdv := hd di rfl
    obtain ⟨a1, a2, a3, -⟩ := sortRow_ok ha hs hdv h1
    obtain ⟨b1, b2, b3, -⟩ := sortRow_ok ha a1 hc h2
    refine ⟨b1, relabels_trans a2 b2, ?_⟩
    intro t ht
    rcases List.mem_append.1 ht with ht | ht
    · cases d1 with
      | none => simp at ht
      | some x =>
        simp only at ht
        split at ht
        · rw [List.mem_singleton] at ht
          subst ht
          refine ⟨hdv, ?_⟩
          intro y hy
          simp only [Option.some.injEq] at hy
          subst hy; exact a3 _ rfl
        · simp at ht
    · cases d2 with
      | none => simp at ht
      | some x =>
        simp only at ht
        split at ht
        · rw [List.mem_singleton] at ht
          subst ht
          refine ⟨hc, ?_⟩
          intro y hy
          simp only [Option.some.injEq] at hy
          subst hy; exact b3 _ rfl
        · simp at ht

theorem sortLoop_relabels {argsort : Vec → List Nat} (ha : IsArgsort argsort) {v : Nat} (n : Nat) :
    ∀ (M : Mat) (q : List Instr) (S : Mat), Spec.Square v M →
      (∀ t ∈ q, t.c1 ≤ v ∧ ∀ x, t.di = some x → x ≤ v) → sortLoop argsort n M q = .ok S →
      Spec.Square v S ∧ Spec.Relabels v M S := by
  induction n with
  | zero =>
    intro M q S hs hq h
    cases q with
    | nil =>
      simp only [sortLoop, Except.ok.injEq] at h
      subst h; exact ⟨hs, relabels_refl _ _⟩
    | cons si q => simp [sortLoop] at h
  | succ n ih =>
    intro M q S hs hq h
    cases q with
    | nil =>
      simp only [sortLoop, Except.ok.injEq] at h
      subst h; exact ⟨hs, relabels_refl _ _⟩
    | cons si q =>
      unfold sortLoop at h
      rw [bind_eq_ok] at h
      obtain ⟨⟨M', sii⟩, h1, h2⟩ := h
      have hsi := hq si (by simp)
      obtain ⟨a1, a2, a3⟩ := divSort_ok ha hs hsi.1 hsi.2 h1
      obtain ⟨b1, b2⟩ := ih M' _ S a1 (by
        intro t ht
        rcases List.mem_append.1 ht with ht | ht
        · exact hq t (List.mem_cons_of_mem _ ht)
        · exact a3 t ht) h2
      exact ⟨b1, relabels_trans a2 b2⟩

/-- `maximize` fails with `TypeError` when the first row has no zero right of the diagonal. -/
theorem maximize_typeErr {argsort : Vec → List Nat} (ha : IsArgsort argsort) {v : Nat} {A : Mat}
    (hs : Spec.Square v A) (hsym : Spec.Symmetric v A)
    (hz : ∀ j, 1 ≤ j → j < v → Spec.ent A 0 j ≠ 0) :
    maximize argsort A = .error .typeErr := by
  have hfin : ∀ (M : Mat) (n : Nat), sortLoop argsort (n + 1) M [⟨0, 1, v, none⟩] =
      .error .typeErr := by
    intro M n
    unfold sortLoop divSort sortRow
    rfl
  have hpow : ∃ n, 2 ^ (v + 1) = n + 1 := ⟨2 ^ (v + 1) - 1, by
    have : 0 < 2 ^ (v + 1) := Nat.pow_pos (by decide)
    omega⟩
  obtain ⟨n, hn⟩ := hpow
  have hfirst : ∃ S, sortRow argsort A 0 1 (some v) = .ok (S, none) := by
    by_cases hv : 1 < v
    · obtain ⟨S, d, h1, h2⟩ := (sortRow_step ha hs (show 0 < 1 by omega) hv (Nat.le_refl v)).2 hsym
      cases d with
      | none => exact ⟨S, h1⟩
      | some x =>
        exfalso
        obtain ⟨a1, a2, a3, -⟩ := h2.first x rfl
        obtain ⟨f, g1, g2, g3⟩ := h2.map
        have hx := g2 x a1 a2
        rw [g3 0 (by omega) x a2, g1 0 (by omega)] at a3
        exact hz _ hx.1 hx.2 a3
    · refine ⟨A, ?_⟩
      unfold sortRow
      rw [if_neg (by omega)]
      simp only
      rw [if_pos (by omega)]
  obtain ⟨S, hS⟩ := hfirst
  unfold maximize
  simp only [hs.rows]
  rw [hS, ok_bind]
  simp only
  rw [hn]
  exact hfin S n

/-- C25: whenever `maximize` returns, with any tie-breaking of `argsort`, the input was symmetric
and the result is the same graph with its vertices renumbered. -/
theorem C25_relabels {argsort : Vec → List Nat} (ha : IsArgsort argsort) {v : Nat} {A M : Mat}
    (hs : Spec.Square v A) (h : maximize argsort A = .ok M) :
    Spec.Square v M ∧ Spec.Relabels v A M ∧ Spec.Symmetric v A ∧ Spec.Symmetric v M ∧
      ∑ i : Fin v, Spec.ent M i i = ∑ i : Fin v, Spec.ent A i i ∧
      ∀ k l u, Spec.IsSRG v k l u A ↔ Spec.IsSRG v k l u M := by
  have hsym : Spec.Symmetric v A := by
    by_cases hv : 1 < v
    · by_contra hn
      have := (sortRow_step ha hs (show 0 < 1 by omega) hv (Nat.le_refl v)).1 hn
      unfold maximize at h
      simp only [hs.rows] at h
      rw [this] at h
      simp [bind, Except.bind] at h
    · intro i hi j hj
      have : i = j := by omega
      rw [this]
  have hmain : Spec.Square v M ∧ Spec.Relabels v A M := by
    unfold maximize at h
    simp only [hs.rows] at h
    rw [bind_eq_ok] at h
    obtain ⟨⟨S, d⟩, h1, h2⟩ := h
    obtain ⟨a1, a2, a3, -⟩ := sortRow_ok ha hs (Nat.le_refl v) h1
    obtain ⟨b1, b2⟩ := sortLoop_relabels ha _ S _ M a1 (by
      intro t ht
      rw [List.mem_singleton] at ht
      subst ht
      exact ⟨Nat.le_refl v, a3⟩) h2
    exact ⟨b1, relabels_trans a2 b2⟩
  refine ⟨hmain.1, hmain.2, hsym, symmetric_relabel hmain.2 hsym, ?_, ?_⟩
  · rw [← trace_eq hmain.1, ← trace_eq hs]
    exact trace_relabel hs hmain.1 hmain.2
  · intro k l u
    exact ⟨fun h => isSRG_relabel h hmain.1 hmain.2,
      fun h => isSRG_relabel h hs (relabels_symm hmain.2)⟩

/-- C25: in particular on strongly regular graphs. -/
example : maximize stableArgsort pentagon' = .ok pentagon ∧ Spec.IsSRG 5 2 0 1 pentagon :=
  ⟨by decide +kernel, pentagon_srg⟩

/-! ### C26 -/

/-- C26, first row: in the result the ones of row 0 come before its zeros, with any tie-breaking
of `argsort`. -/
theorem C26_first_row {argsort : Vec → List Nat} (ha : IsArgsort argsort) {v : Nat} {A M : Mat}
    (hs : Spec.Square v A) (hb : ∀ r ∈ A, Spec.Bin r) (h : maximize argsort A = .ok M)
    {j j' : Nat} (h1 : 1 ≤ j) (h2 : j < j') (h3 : j' < v) (h4 : Spec.ent M 0 j' = 1) :
    Spec.ent M 0 j = 1 := by
  have hsym := (C25_relabels ha hs h).2.2.1
  by_cases hz : ∃ j, 1 ≤ j ∧ j < v ∧ Spec.ent A 0 j = 0
  · obtain ⟨M', g1, g2⟩ := maximize_ok ha hs hsym hb hz
    rw [g1] at h
    simp only [Except.ok.injEq] at h
    subst h
    have := g2.row0 j j' h1 h2 h3
    rcases g2.bin 0 (by omega) j (by omega) with h0 | h0 <;> omega
  · rw [maximize_typeErr ha hs hsym (fun j a b c => hz ⟨j, a, b, c⟩)] at h
    simp at h

/-- C26: the entries right of the diagonal, read row by row, never get smaller, provided `argsort`
leaves input that is already sorted alone.  Missing for the statement as given: other tie-breaking
orders, for which it is false (`C26_false`). -/
theorem C26_monotone_partial {argsort : Vec → List Nat} (ha : IsArgsort argsort)
    (hk : ∀ a : Vec, a.Pairwise (· ≤ ·) → argsort a = List.range a.length) {v : Nat} {A M : Mat}
    (hs : Spec.Square v A) (hb : ∀ r ∈ A, Spec.Bin r) (h : maximize argsort A = .ok M) :
    M = A ∨ Spec.UpperLT v A M := by
  have hsym := (C25_relabels ha hs h).2.2.1
  by_cases hz : ∃ j, 1 ≤ j ∧ j < v ∧ Spec.ent A 0 j = 0
  · obtain ⟨M', g1, g2⟩ := maximize_ok ha hs hsym hb hz
    rw [g1] at h
    simp only [Except.ok.injEq] at h
    subst h
    exact g2.grow hk
  · rw [maximize_typeErr ha hs hsym (fun j a b c => hz ⟨j, a, b, c⟩)] at h
    simp at h

theorem stable_keeps : ∀ a : Vec, a.Pairwise (· ≤ ·) → stableArgsort a = List.range a.length := by
  intro a h
  refine List.Pairwise.insertionSort_eq ?_
  rw [List.pairwise_iff_getElem] at h ⊢
  intro i j hi hj hij
  simp only [List.length_range] at hi hj
  simp only [List.getElem_range]
  rw [List.getD_eq_getElem _ _ hi, List.getD_eq_getElem _ _ hj]
  exact h i j hi hj hij

/-- A sorting order that puts the last of equal elements first. -/
def revArgsort (a : Vec) : List Nat :=
  (List.range a.length).reverse.insertionSort (fun i j => a.getD i 0 ≤ a.getD j 0)

theorem isArgsort_rev : IsArgsort revArgsort := by
  constructor
  · intro a; exact (List.perm_insertionSort _ _).trans (List.reverse_perm _)
  · intro a
    rw [List.pairwise_map]
    have : Std.Total (fun i j : Nat => a.getD i 0 ≤ a.getD j 0) := ⟨fun i j => le_total _ _⟩
    have : IsTrans Nat (fun i j : Nat => a.getD i 0 ≤ a.getD j 0) := ⟨fun i j k => le_trans⟩
    exact List.pairwise_insertionSort (fun i j : Nat => a.getD i 0 ≤ a.getD j 0) _

/-- One edge, between the middle vertices of four. -/
def middleEdge : Mat := [[0, 0, 0, 0], [0, 0, 1, 0], [0, 1, 0, 0], [0, 0, 0, 0]]

/-- C26 is false for arbitrary tie-breaking: the encoding can get smaller. -/
theorem C26_false : ¬ ∀ (argsort : Vec → List Nat), IsArgsort argsort → ∀ (v : Nat) (A M : Mat),
    Spec.Square v A → Spec.Symmetric v A → (∀ r ∈ A, Spec.Bin r) → maximize argsort A = .ok M →
    M = A ∨ Spec.UpperLT v A M := by
  intro h
  have hM : maximize revArgsort middleEdge =
      .ok [[0, 0, 0, 0], [0, 0, 0, 0], [0, 0, 0, 1], [0, 0, 1, 0]] := by decide +kernel
  have hs : Spec.Square 4 middleEdge := ⟨by decide, by decide⟩
  have hs' : Spec.Square 4 [[0, 0, 0, 0], [0, 0, 0, 0], [0, 0, 0, 1], [0, 0, 1, 0]] :=
    ⟨by decide, by decide⟩
  rcases h revArgsort isArgsort_rev 4 middleEdge _ hs (by unfold Spec.Symmetric; decide) (by
    rw [bin_iff hs]; decide) hM with h1 | h1
  · exact absurd h1 (by decide)
  · have := (cmpMat_neg hs hs').2 h1
    exact absurd this (by decide)

/-- `maximize` does not find the largest encoding: it leaves this matrix alone although swapping
two vertices makes it larger. -/
theorem C26_not_maximum : ∃ A B : Mat, Spec.Square 4 A ∧ Spec.Square 4 B ∧ Spec.Symmetric 4 A ∧
    (∀ r ∈ A, Spec.Bin r) ∧ maximize stableArgsort A = .ok A ∧ Spec.Relabels 4 A B ∧
    Spec.UpperLT 4 A B := by
  refine ⟨[[0, 0, 0, 0], [0, 0, 0, 1], [0, 0, 0, 0], [0, 1, 0, 0]],
    [[0, 0, 0, 0], [0, 0, 1, 0], [0, 1, 0, 0], [0, 0, 0, 0]], ⟨by decide, by decide⟩,
    ⟨by decide, by decide⟩, by unfold Spec.Symmetric; decide, ?_, by decide +kernel, ⟨Equiv.swap 2 3, by decide⟩, ?_⟩
  · rw [bin_iff (v := 4) ⟨by decide, by decide⟩]; decide
  · exact ⟨1, 2, by decide, by decide, by decide, by
      intro i j h1 h2 h3
      unfold Spec.Before at h3
      have hi : i = 0 ∨ i = 1 := by omega
      rcases hi with rfl | rfl
      · have : j = 1 ∨ j = 2 ∨ j = 3 := by omega
        rcases this with rfl | rfl | rfl <;> rfl
      · omega⟩

/-- C26: a strict increase. -/
example : maximize stableArgsort pentagon' = .ok pentagon ∧ Spec.UpperLT 5 pentagon' pentagon := by
  refine ⟨by decide +kernel, ?_⟩
  rw [← cmpMat_neg ⟨by decide, by decide⟩ ⟨by decide, by decide⟩]
  decide

/-! ### C27 -/

/-- C27: on square 0/1 matrices `maximize` stops, with any tie-breaking of `argsort`.  It raises
`AssertionError` on matrices that are not symmetric, `TypeError` on symmetric ones whose row 0 has
no zero right of the diagonal, and returns on all others. -/
theorem C27_outcome {argsort : Vec → List Nat} (ha : IsArgsort argsort) {v : Nat} {A : Mat}
    (hs : Spec.Square v A) (hb : ∀ r ∈ A, Spec.Bin r) :
    (¬ Spec.Symmetric v A ∧ maximize argsort A = .error .assertion) ∨
    (Spec.Symmetric v A ∧ (∀ j, 1 ≤ j → j < v → Spec.ent A 0 j = 1) ∧
      maximize argsort A = .error .typeErr) ∨
    (Spec.Symmetric v A ∧ (∃ j, 1 ≤ j ∧ j < v ∧ Spec.ent A 0 j = 0) ∧
      ∃ M, maximize argsort A = .ok M) := by
  by_cases hsym : Spec.Symmetric v A
  · right
    by_cases hz : ∃ j, 1 ≤ j ∧ j < v ∧ Spec.ent A 0 j = 0
    · right
      obtain ⟨M, h1, -⟩ := maximize_ok ha hs hsym hb hz
      exact ⟨hsym, hz, M, h1⟩
    · left
      have hb' := (bin_iff hs).1 hb
      refine ⟨hsym, ?_, maximize_typeErr ha hs hsym (fun j a b c => hz ⟨j, a, b, c⟩)⟩
      intro j h1 h2
      rcases hb' 0 (by omega) j h2 with h0 | h0
      · exact absurd ⟨j, h1, h2, h0⟩ hz
      · exact h0
  · left
    refine ⟨hsym, ?_⟩
    have hv : 1 < v := by
      by_contra hv
      exact hsym (fun i hi j hj => by rw [show i = j by omega])
    have := (sortRow_step ha hs (show 0 < 1 by omega) hv (Nat.le_refl v)).1 hsym
    unfold maximize
    simp only [hs.rows]
    rw [this]
    rfl

example : maximize stableArgsort [[0, 1, 1], [1, 0, 1], [1, 1, 0]] = .error .typeErr ∧
    maximize stableArgsort [[0, 1], [0, 0]] = .error .assertion ∧
    maximize stableArgsort [[0, 0], [0, 0]] = .ok [[0, 0], [0, 0]] ∧
    maximize stableArgsort [] = .error .typeErr := by decide +kernel

end TDS
