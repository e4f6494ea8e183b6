import Verif.Model.Np

/-! Model of the leaf modules /repo/srg/unique.py, /repo/srg/bounds.py, /repo/srg/fork.py and
/repo/srg/partition.py -/

namespace TDS

namespace Unique

/-- Code of one column in `_encode` (/repo/srg/unique.py:16-19), in `int64`. -/
def colKey (c : Vec) : Int :=
  let R := c.length
  (List.range (R - 1)).reverse.foldl
    (fun s r => i64 (s + i64 (c.getD r 0 * 2 ^ (R - 1 - r)))) (c.getD (R - 1) 0)

/-- `_encode` (/repo/srg/unique.py:7-21): one code per column.  `IndexError` on an array with
no rows. -/
def encode (A : Mat) : Res (List Int) :=
  if A.length = 0 then .error .index
  else .ok ((List.range (ncols A)).map (fun j => colKey (col A j)))

end Unique

namespace Bounds

/-- One row's update of `bounds` in `lower_upper_bound` (/repo/srg/bounds.py:10-17).  The inner
loop writes distinct positions, so it is the pointwise update. -/
def boundRow (row : Vec) (lub : Int) (bounds : Vec) : Vec :=
  List.zipWith (fun a bd => if a ≠ 0 then min bd lub else bd) row bounds

/-- `lower_upper_bound` (/repo/srg/bounds.py:8-17). -/
def lowerUpperBound (A : Mat) (b : Vec) (bounds : Vec) : Vec :=
  (A.zip b).foldl (fun bd p => boundRow p.1 p.2 bd) bounds

/-- `zero_bound_loc` (/repo/srg/bounds.py:20-21). -/
def zeroBoundLoc (bounds : Vec) : List Nat := npWhere (fun x => x == 0) bounds

/-- Dictionary assignment `d[c] = r` on an insertion-ordered association list (/repo/srg/bounds.py:44). -/
def dictSet (d : List (Nat × Nat)) (c r : Nat) : List (Nat × Nat) :=
  match d with
  | [] => [(c, r)]
  | (c', r') :: t => if c' = c then (c, r) :: t else (c', r') :: dictSet t c r

/-- `one_element_row_locs` (/repo/srg/bounds.py:24-46): pairs `(r, c)` such that row `r` has
its only nonzero at column `c`; of several rows with the same column the last wins.  The
result is a Python `set`; its (unspecified) iteration order is represented here by the
dictionary order, and proved irrelevant. -/
def oneElementRowLocs (A : Mat) : List (Nat × Nat) :=
  let crs := A.zipIdx.foldl (fun d p =>
    match npWhere (fun x => x != 0) p.1 with
    | [c] => dictSet d c p.2
    | _ => d) []
  crs.map (fun p => (p.2, p.1))

end Bounds

namespace Fork

/-- `_pop_col` (/repo/srg/fork.py:6-9). -/
def popCol (A : Mat) (index : Nat) : Vec × Mat := (col A index, A.map (npDelete [index]))

/-- `_pop_ele` (/repo/srg/fork.py:12-15). -/
def popEle (row : Vec) (index : Nat) : Res (Int × Vec) := do
  let ele ← pyGet row index
  .ok (ele, npDelete [index] row)

/-- `range(a, b)` (/repo/srg/partition.py:14; /repo/srg/fork.py:22). -/
def pyRange (a b : Int) : List Int := (List.range (b - a).toNat).map (fun (n : Nat) => a + n)

/-- `enum` (/repo/srg/fork.py:18-24), as the list of yielded pairs. -/
def enum (quota : Int) (bounds : Vec) (loc : Nat) : Res (List (Int × Int)) := do
  let (m, rest) ← popEle bounds loc
  let start := max 0 (quota - rest.sum)
  .ok ((pyRange start (m + 1)).map (fun q => (q, quota - q)))

end Fork

namespace Partition

/-- `enum` (/repo/srg/partition.py:4-22), as the list of yielded tuples.  The generator's
assertions (`s >= 0`, at least one bound) are the error branch. -/
def enum : Int → Vec → Res (List Vec)
  | _, [] => .error .assertion
  | s, [bound] => do
    pyAssert (decide (s ≥ 0))
    .ok (if s ≤ bound then [[s]] else [])
  | s, bound :: b2 :: others => do
    pyAssert (decide (s ≥ 0))
    let parts ← (Fork.pyRange 0 (min bound s + 1)).mapM (fun v => do
      let ts ← enum (s - v) (b2 :: others)
      .ok (ts.map (fun t => v :: t)))
    .ok parts.flatten

end Partition

end TDS
