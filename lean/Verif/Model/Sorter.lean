import Verif.Model.Unique

/-! `srg/sorter.py`.  `np.argsort` is a parameter (see `IsArgsort`). -/

namespace TDS

namespace Sorter

/-- `M[:, ii][ii, :]` (/repo/srg/sorter.py:67-68, 112). -/
def permute (M : Mat) (ii : List Nat) : Mat :=
  ii.map (fun i => ii.map (fun j => (M.getD i []).getD j 0))

/-- `M.T` of a square array (/repo/srg/sorter.py:69, 117). -/
def transpose (M : Mat) : Mat :=
  (List.range M.length).map (fun i => (List.range M.length).map (fun j => (M.getD j []).getD i 0))

/-- `M[row, c0:c1]` (/repo/srg/sorter.py:60, 74). -/
def slice (M : Mat) (row c0 c1 : Nat) : Vec := ((M.getD row []).take c1).drop c0

/-- `ii` (/repo/srg/sorter.py:63-64): `arange(v)` with the window `c0..c1` rearranged by `i`. -/
def window (v c0 c1 : Nat) (i : List Nat) : List Nat :=
  List.range c0 ++ i.map (· + c0) ++ (List.range (v - c1)).map (· + c1)

/-- `AdjMat._sort` (/repo/srg/sorter.py:53-79): the new matrix and the returned index.
Square arrays only; `c1 = none` is Python's `None`, which cannot be compared (`TypeError`). -/
def sortRow (argsort : Vec → List Nat) (M : Mat) (row c0 : Nat) (c1 : Option Nat) :
    Res (Mat × Option Nat) :=
  if row ≥ c0 then .ok (M, none)
  else match c1 with
    | none => .error .typeErr
    | some c1 =>
      if c0 ≥ c1 then .ok (M, none)
      else do
        let a := slice M row c0 c1
        let i := argsort (a.map (fun x => -x))
        let S := permute M (window M.length c0 c1 i)
        pyAssert (decide (S = transpose S))
        let zeros := npWhere (fun x => x == 0) (slice S row c0 c1)
        .ok (S, zeros.head?.map (· + c0))

/-- `SortInstruct` (/repo/srg/sorter.py:9).  The queue holds only instructions with a known
`div_index`, except the very first one. -/
structure Instr where
  row : Nat
  c0 : Nat
  c1 : Nat
  di : Option Nat
deriving DecidableEq, Repr

/-- `AdjMat._div_sort` (/repo/srg/sorter.py:29-52). -/
def divSort (argsort : Vec → List Nat) (M : Mat) (si : Instr) : Res (Mat × List Instr) := do
  let c0' := if si.row + 1 = si.c0 then si.c0 + 1 else si.c0
  let (M, di1) ← sortRow argsort M (si.row + 1) c0' si.di
  match si.di with
  | none => .error .typeErr
  | some di => do
    let (M, di2) ← sortRow argsort M (si.row + 1) di (some si.c1)
    let out1 := match di1 with
      | some d => if d ≠ 0 then [⟨si.row + 1, c0', di, some d⟩] else []
      | none => []
    let out2 := match di2 with
      | some d => if d ≠ 0 then [⟨si.row + 1, di, si.c1, some d⟩] else []
      | none => []
    .ok (M, out1 ++ out2)

/-- The queue loop of `AdjMat.sort` (/repo/srg/sorter.py:20-27), with a step budget. -/
def sortLoop (argsort : Vec → List Nat) : Nat → Mat → List Instr → Res Mat
  | _, M, [] => .ok M
  | 0, _, _ :: _ => .error .fuel
  | n + 1, M, si :: q => do
    let (M, sii) ← divSort argsort M si
    sortLoop argsort n M (q ++ sii)

/-- `AdjMat.sort` (/repo/srg/sorter.py:17-27) and `maximize` (/repo/srg/sorter.py:82-88). -/
def maximize (argsort : Vec → List Nat) (A : Mat) : Res Mat := do
  let v := A.length
  let (M, d) ← sortRow argsort A 0 1 (some v)
  sortLoop argsort (2 ^ (v + 1)) M [⟨0, 1, v, d⟩]

/-- `_cmp_1d_bin_array` (/repo/srg/sorter.py:91-95).  The difference is taken in the array's
type; for 0/1 entries it does not wrap. -/
def cmp1d : Vec → Vec → Int
  | a :: s, b :: t => if a = b then cmp1d s t else a - b
  | _, _ => 0

/-- `_encode` (/repo/srg/sorter.py:97-98): the entries right of the diagonal, row by row. -/
def encodeFrom : Nat → Mat → Vec
  | _, [] => []
  | r, arr :: t => arr.drop (r + 1) ++ encodeFrom (r + 1) t

/-- `_encode` of a matrix with at least one row (/repo/srg/sorter.py:97-98). -/
def encode (M : Mat) : Vec := encodeFrom 0 M

/-- `_cmp_srg_matrix` (/repo/srg/sorter.py:100-103) on matrices with at least one row. -/
def cmpMat (a b : Mat) : Int := cmp1d (encode a) (encode b)

/-- Insertion of `x` before the first element it is not greater than (/repo/srg/sorter.py:105-106). -/
def insertBy (x : Mat) : List Mat → List Mat
  | [] => [x]
  | y :: t => if cmpMat y x < 0 then y :: insertBy x t else x :: y :: t

/-- `sort` (/repo/srg/sorter.py:105-106).  `sorted` is a stable sort by the comparison; it is
modelled by insertion sort, which agrees with every stable sort when the comparison is a total
preorder.  `np.hstack` of no rows is a `ValueError`, raised as soon as two items are compared. -/
def sort (lst : List Mat) : Res (List Mat) :=
  if 2 ≤ lst.length ∧ lst.any (fun m => m.isEmpty) then .error .valueErr
  else .ok (lst.foldr insertBy [])

/-- `swap` (/repo/srg/sorter.py:109-112) for nonnegative indices; `swapInt` below takes any
integers. -/
def swap (M : Mat) (i j : Nat) : Res Mat :=
  let v := M.length
  if i < v ∧ j < v then
    .ok (permute M ((List.range v).map (fun x => if x = i then j else if x = j then i else x)))
  else .error .index

/-- `np.trace(M)` (/repo/srg/sorter.py:116). -/
def trace (M : Mat) : Int := ((List.range M.length).map (fun i => (M.getD i []).getD i 0)).sum

/-- The position an integer index of an array of length `v` denotes: a negative one counts from
the end, one outside `-v .. v-1` is an `IndexError` (/repo/srg/sorter.py:111). -/
def position (v : Nat) (i : Int) : Res Nat :=
  if 0 ≤ i ∧ i < v then .ok i.toNat
  else if -(v : Int) ≤ i ∧ i < 0 then .ok (i + v).toNat
  else .error .index

/-- `swap` (/repo/srg/sorter.py:109-112) statement by statement, for any integer indices. -/
def swapInt (M : Mat) (i j : Int) : Res Mat := do
  let cols := List.range M.length
  let q ← position M.length j
  let p ← position M.length i
  let cj := cols.getD q 0
  let ci := cols.getD p 0
  let cols := (cols.set p cj).set q ci
  .ok (permute M cols)

/-- `swap_and_verify` (/repo/srg/sorter.py:114-118) for any integer indices. -/
def swapAndVerifyInt (M : Mat) (i j : Int) : Res Mat := do
  let M ← swapInt M i j
  pyAssert (trace M == 0)
  pyAssert (decide (M = transpose M))
  .ok M

/-- `swap_and_verify` (/repo/srg/sorter.py:114-118).  The trace is an int64 sum. -/
def swapAndVerify (M : Mat) (i j : Nat) : Res Mat := do
  let M ← swap M i j
  pyAssert (trace M == 0)
  pyAssert (decide (M = transpose M))
  .ok M

end Sorter

end TDS
