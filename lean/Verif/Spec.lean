import Mathlib.Algebra.BigOperators.Group.List.Basic
import Mathlib.Algebra.Order.Ring.Int

/-! Specification vocabulary.  Nothing here refers to the model: matrices are lists of rows of
integers, and every notion is spelled out entrywise. -/

namespace Spec

/-- A row of integers. -/
abbrev Row := List Int

/-- A matrix, as its rows. -/
abbrev Matrix := List (List Int)

/-- Entry `(i, j)`. -/
def ent (m : Matrix) (i j : Nat) : Int := (m.getD i []).getD j 0

/-- All entries are 0 or 1. -/
def Bin (r : Row) : Prop := ∀ x ∈ r, x = 0 ∨ x = 1

/-- A 0/1 matrix with `v` columns and at most `v` rows. -/
structure Part (v : Nat) (m : Matrix) : Prop where
  rect : ∀ r ∈ m, r.length = v
  bin : ∀ r ∈ m, Bin r
  rows : m.length ≤ v

/-- Number of positions where both 0/1 rows have a one. -/
def meet (r s : Row) : Int := ((List.range r.length).map (fun j => r.getD j 0 * s.getD j 0)).sum

/-- `x` satisfies every equation of the system. -/
def Solves (A : Matrix) (b x : Row) : Prop :=
  ∀ i < A.length, meet (A.getD i []) x = b.getD i 0

/-- A nonempty system of equations with 0/1 coefficients in `C` unknowns, one right-hand side per
equation. -/
structure System (C : Nat) (A : Matrix) (b : Row) : Prop where
  ne : A ≠ []
  len : b.length = A.length
  rect : ∀ r ∈ A, r.length = C
  bin : ∀ r ∈ A, Bin r

/-- Value of a row read as a binary number, first entry most significant. -/
def binVal (r : Row) : Int := r.foldl (fun a x => 2 * a + x) 0

/-- Entrywise order of rows. -/
def Within (r s : Row) : Prop := ∀ j, r.getD j 0 ≤ s.getD j 0

/-- Columns `i` and `j` agree. -/
def ColEq (m : Matrix) (i j : Nat) : Prop := ∀ r ∈ m, r.getD i 0 = r.getD j 0

/-- In the unfinished part of `m` (columns after the next diagonal position) equal columns are
adjacent. -/
def Adjacent (v : Nat) (m : Matrix) : Prop :=
  ∀ i j k, m.length < i → i < j → j < k → k < v → ColEq m i k → ColEq m i j

/-- Within a class of equal unfinished columns of `m`, the ones of `row` come first. -/
def LeftJustified (v : Nat) (m : Matrix) (row : Row) : Prop :=
  ∀ i j, m.length < i → i < j → j < v → ColEq m i j → row.getD j 0 ≤ row.getD i 0

/-- The next row is forced up to the diagonal: the next column of `m`, a zero, then `x`. -/
def nextRow (m : Matrix) (x : Row) : Row := m.map (fun r => r.getD m.length 0) ++ 0 :: x

/-- `row` may follow `m` in the adjacency matrix of a strongly regular graph: `k` ones, meeting
every earlier row in `l` or `u` ones. -/
def RowOK (k l u : Int) (m : Matrix) (row : Row) : Prop :=
  row.sum = k ∧ ∀ i < m.length,
    meet (m.getD i []) row = if ent m i m.length = 1 then l else u

/-- Weaker: at most that many. -/
def RowLE (k l u : Int) (m : Matrix) (row : Row) : Prop :=
  row.sum ≤ k ∧ ∀ i < m.length,
    meet (m.getD i []) row ≤ if ent m i m.length = 1 then l else u

/-- Symmetric with zero diagonal, on the rows present. -/
structure SymPart (m : Matrix) : Prop where
  diag : ∀ i < m.length, ent m i i = 0
  sym : ∀ i < m.length, ∀ j < m.length, ent m i j = ent m j i

/-- Adjacency matrix of a simple graph on `v` vertices. -/
structure IsAdj (v : Nat) (m : Matrix) : Prop where
  part : Part v m
  square : m.length = v
  sym : SymPart m

/-- Adjacency matrix of a strongly regular graph with parameters `(v, k, l, u)`. -/
structure IsSRG (v : Nat) (k l u : Int) (m : Matrix) : Prop where
  adj : IsAdj v m
  deg : ∀ r ∈ m, r.sum = k
  meet : ∀ i < v, ∀ j < v, i ≠ j →
    Spec.meet (m.getD i []) (m.getD j []) = if ent m i j = 1 then l else u

end Spec
