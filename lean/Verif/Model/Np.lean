/-
Numpy / Python primitives used by the code in /repo/srg.

These definitions model *library* behaviour (CPython, numpy), not repository code; each is
the contract assumed of the library and is listed in DESIGN.md (trusted base).
-/

namespace TDS

/-- Exceptions the code can raise, as values.
`noSolution` is `srg.NoSolution` (/repo/srg/srg.py:12); the others are built-in Python
exceptions.  `fuel` is not a Python exception: it marks a modelled `while` loop that did not
finish within the steps it was given (proved unreachable where termination is claimed). -/
inductive Err where
  | noSolution
  | assertion
  | index
  | stopIteration
  | typeErr
  | valueErr
  | importErr
  | zeroDiv
  | fuel
  deriving DecidableEq, Repr, Inhabited

/-- Result of a Python call (/repo/srg/srg.py:12; /repo/srg/solver.py:196-214). -/
abbrev Res (α : Type) := Except Err α

/-- `assert cond` (/repo/srg/srg.py:19-23, 80, 83, 102-103; /repo/srg/solver.py:41). -/
def pyAssert (c : Bool) : Res Unit := if c then .ok () else .error .assertion

/-- 1-d integer array (/repo/srg/srg.py:7). -/
abbrev Vec := List Int

/-- 2-d integer array as its list of rows.  (The column count of an array with no rows is not
represented.) (/repo/srg/srg.py:7). -/
abbrev Mat := List Vec

/-- Number of columns, `A.shape[1]`. -/
def ncols (A : Mat) : Nat := (A.headD []).length

/-- Value stored in an `int8` cell (/repo/srg/srg.py:7-9). -/
def i8 (x : Int) : Int := Int.bmod x 256

/-- Value stored in an `int64` cell (/repo/srg/srg.py:31; /repo/srg/unique.py:16; /repo/srg/gauss_elim.py:90). -/
def i64 (x : Int) : Int := Int.bmod x 18446744073709551616

/-- `l[i]` on a sequence, `IndexError` out of range (negative indices are not used)
(/repo/srg/solver.py:104, 148, 180). -/
def pyGet {α : Type} (l : List α) (i : Nat) : Res α :=
  match l[i]? with
  | some a => .ok a
  | none => .error .index

/-- Inner product over the integers (/repo/srg/srg.py:152, 270; /repo/srg/solver.py:132). -/
def dot (r x : Vec) : Int := (List.zipWith (· * ·) r x).sum

/-- `M[:, j]` (/repo/srg/srg.py:149; /repo/srg/fork.py:7). -/
def col (A : Mat) (j : Nat) : Vec := A.map (fun r => r.getD j 0)

/-- `np.where(p(l))[0]`, indices offset by `i` (/repo/srg/srg.py:42; /repo/srg/bounds.py:21). -/
def whereFrom (p : Int → Bool) : Nat → Vec → List Nat
  | _, [] => []
  | i, x :: xs => if p x then i :: whereFrom p (i + 1) xs else whereFrom p (i + 1) xs

/-- `np.where(p(l))[0]` (/repo/srg/srg.py:42; /repo/srg/bounds.py:21). -/
def npWhere (p : Int → Bool) (l : Vec) : List Nat := whereFrom p 0 l

/-- `np.delete(l, idxs)` with positions counted from `i` (/repo/srg/solver.py:72-73, 106, 155, 171). -/
def deleteFrom {α : Type} (idxs : List Nat) : Nat → List α → List α
  | _, [] => []
  | i, x :: xs => if idxs.contains i then deleteFrom idxs (i + 1) xs else x :: deleteFrom idxs (i + 1) xs

/-- `np.delete(l, idxs)` for in-range `idxs` (/repo/srg/solver.py:72-73, 106, 155, 171). -/
def npDelete {α : Type} (idxs : List Nat) (l : List α) : List α := deleteFrom idxs 0 l

/-- `np.diff(l)` (/repo/srg/srg.py:22, 36; /repo/srg/unique.py:26, 29). -/
def npDiff : Vec → Vec
  | [] => []
  | [_] => []
  | x :: y :: t => (y - x) :: npDiff (y :: t)

/-- `np.argmin(l)`: first index of the least element (`none` on empty: ValueError) (/repo/srg/solver.py:170). -/
def argminFrom : Nat → Vec → Option (Nat × Int)
  | _, [] => none
  | i, x :: xs =>
    match argminFrom (i + 1) xs with
    | none => some (i, x)
    | some (j, y) => if x ≤ y then some (i, x) else some (j, y)

/-- `np.argmin(l)` (/repo/srg/solver.py:170). -/
def npArgmin (l : Vec) : Res Nat :=
  match argminFrom 0 l with
  | none => .error .valueErr
  | some (i, _) => .ok i

end TDS
