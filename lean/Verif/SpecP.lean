import Mathlib.Combinatorics.SimpleGraph.Basic
import Mathlib.Data.Fintype.Card
import Mathlib.Algebra.Group.Even
import Mathlib.Algebra.Field.Basic

/-! Specification of some classical families of graphs. -/

namespace Spec

/-- Two points are joined if they are on a common line. -/
def collinear {P L : Type*} (inc : P → L → Prop) : SimpleGraph P where
  Adj p q := p ≠ q ∧ ∃ c, inc p c ∧ inc q c
  symm := ⟨fun _ _ ⟨h, c, h1, h2⟩ => ⟨h.symm, c, h2, h1⟩⟩
  loopless := ⟨fun _ h => h.1 rfl⟩

open Classical in
/-- Points and lines such that two points are on at most one line, every line has `s + 1` points, every
point is on `t + 1` lines, and a point off a line is collinear with exactly `α` points of it. -/
structure PartialGeometry {P L : Type*} [Fintype P] [Fintype L] (inc : P → L → Prop) (s t α : Nat) : Prop where
  unique : ∀ p q c d, p ≠ q → inc p c → inc q c → inc p d → inc q d → c = d
  points : ∀ c, (Finset.univ.filter (fun p => inc p c)).card = s + 1
  lines : ∀ p, (Finset.univ.filter (fun c => inc p c)).card = t + 1
  off : ∀ p c, ¬ inc p c → (Finset.univ.filter (fun q => inc q c ∧ (collinear inc).Adj p q)).card = α

/-- The cells of a square board, joined if a rook can go from one to the other. -/
def rook (X : Type*) : SimpleGraph (X × X) where
  Adj a b := a ≠ b ∧ (a.1 = b.1 ∨ a.2 = b.2)
  symm := ⟨fun _ _ ⟨h, h'⟩ => ⟨h.symm, h'.imp Eq.symm Eq.symm⟩⟩
  loopless := ⟨fun _ h => h.1 rfl⟩

/-- The cells of a Latin square, joined if they share the row, the column or the letter. -/
def latin {X : Type*} (q : X → X → X) : SimpleGraph (X × X) where
  Adj a b := a ≠ b ∧ (a.1 = b.1 ∨ a.2 = b.2 ∨ q a.1 a.2 = q b.1 b.2)
  symm := ⟨fun _ _ ⟨h, h'⟩ => ⟨h.symm, h'.imp Eq.symm (Or.imp Eq.symm Eq.symm)⟩⟩
  loopless := ⟨fun _ h => h.1 rfl⟩

/-- The points of a plane, joined if the line through them is vertical or has its slope in `S`. -/
def slopes {F : Type*} [Field F] (S : Finset F) : SimpleGraph (F × F) where
  Adj a b := a ≠ b ∧ (a.1 = b.1 ∨ ∃ t ∈ S, a.2 - b.2 = t * (a.1 - b.1))
  symm := ⟨fun a b ⟨h, h'⟩ => ⟨h.symm, h'.imp Eq.symm (fun ⟨t, ht, e⟩ => ⟨t, ht, by
    rw [← neg_sub a.2, ← neg_sub a.1, e, mul_neg]⟩)⟩⟩
  loopless := ⟨fun _ h => h.1 rfl⟩

/-- The pairs of elements of a set, joined if they have an element in common. -/
def triangular (X : Type*) [DecidableEq X] : SimpleGraph {s : Finset X // s.card = 2} where
  Adj a b := a ≠ b ∧ ∃ x, x ∈ a.1 ∧ x ∈ b.1
  symm := ⟨fun _ _ ⟨h, x, h1, h2⟩ => ⟨h.symm, x, h2, h1⟩⟩
  loopless := ⟨fun _ h => h.1 rfl⟩

/-- Elements of a field in which -1 is a square, joined if their difference is a square. -/
def paley (F : Type*) [Field F] (h : IsSquare (-1 : F)) : SimpleGraph F where
  Adj a b := a ≠ b ∧ IsSquare (a - b)
  symm := ⟨fun a b ⟨h1, h2⟩ => ⟨h1.symm, by have := h.mul h2; rwa [neg_one_mul, neg_sub] at this⟩⟩
  loopless := ⟨fun _ h => h.1 rfl⟩

end Spec
