import Verif.Spec
import Mathlib.Logic.Equiv.Basic

/-! Specification vocabulary for whole matrices: relabelling and order of encodings. -/

namespace Spec

/-- A `v × v` matrix. -/
structure Square (v : Nat) (m : Matrix) : Prop where
  rows : m.length = v
  rect : ∀ r ∈ m, r.length = v

/-- `m'` is `m` with its vertices renumbered. -/
def Relabels (v : Nat) (m m' : Matrix) : Prop :=
  ∃ σ : Equiv.Perm (Fin v), ∀ i j : Fin v, ent m' i j = ent m (σ i) (σ j)

/-- The matrix equals its transpose. -/
def Symmetric (v : Nat) (m : Matrix) : Prop := ∀ i < v, ∀ j < v, ent m i j = ent m j i

/-- Entry `(i, j)` comes before `(i', j')` when reading row by row. -/
def Before (i j i' j' : Nat) : Prop := i < i' ∨ (i = i' ∧ j < j')

/-- Reading the entries right of the diagonal row by row, the first difference between `m` and
`m'` is an increase. -/
def UpperLT (v : Nat) (m m' : Matrix) : Prop :=
  ∃ i j, i < j ∧ j < v ∧ ent m i j < ent m' i j ∧
    ∀ i' j', i' < j' → j' < v → Before i' j' i j → ent m i' j' = ent m' i' j'

/-- The entries right of the diagonal agree. -/
def UpperEq (v : Nat) (m m' : Matrix) : Prop :=
  ∀ i j, i < j → j < v → ent m i j = ent m' i j

end Spec
