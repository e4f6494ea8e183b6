import Verif.Model.Np

/-! Model of /repo/srg/srg.py -/

namespace TDS

/-- `Answer.UNKNOWN` (/repo/srg/srg.py:15). -/
def UNKNOWN : Int := -1

/-- `Answer` (/repo/srg/srg.py:14-27): `_v`, `_loc`, `_len`. -/
structure Answer where
  v : Vec
  loc : Vec
  len : Int
  deriving DecidableEq, Repr

namespace Answer

/-- `Answer.__init__` (/repo/srg/srg.py:17-27).  `np.diff` only checks that consecutive
locations differ, not that they increase. -/
def mk' (value location : Vec) (len : Int) : Res Answer := do
  pyAssert (value.length == location.length)
  if location.length > 0 then
    pyAssert (location.headD 0 == 0)
    pyAssert ((npDiff location).all (· != 0))
    pyAssert (decide (location.getLastD 0 < len))
  .ok ⟨value, location, len⟩

/-- `Answer.default` (/repo/srg/srg.py:29-31). -/
def default (n : Nat) : Res Answer :=
  mk' (List.replicate n UNKNOWN) ((List.range n).map (fun (i : Nat) => (i : Int))) n

/-- `Answer.quota` (/repo/srg/srg.py:33-38). -/
def quota (a : Answer) : Res Vec := do
  let q := npDiff (a.loc ++ [a.len])
  pyAssert (q.sum == a.len)
  .ok q

/-- `Answer.unknown_loc` (/repo/srg/srg.py:40-42). -/
def unknownLoc (a : Answer) : List Nat := npWhere (fun x => x == UNKNOWN) a.v

/-- `Answer.unknown` (/repo/srg/srg.py:44-46). -/
def unknown (a : Answer) : Bool := a.v.any (fun x => x == UNKNOWN)

/-- `_ans[ptr: ptr + c] = 1` (/repo/srg/srg.py:89) for `0 ≤ ptr`, `0 ≤ c`; slice clamped. -/
def setOnes (ans : Vec) (ptr c : Nat) : Vec :=
  ans.take ptr ++ List.replicate (min c (ans.length - ptr)) 1 ++ ans.drop (ptr + c)

/-- The loop of `binarize` (/repo/srg/srg.py:87-90).  `c` and `b` are nonnegative for every
`Answer` whose locations increase and whose values are known and nonnegative. -/
def binarizeLoop (ans : Vec) (ptr : Nat) : List (Int × Int) → Vec
  | [] => ans
  | (c, b) :: t => binarizeLoop (setOnes ans ptr c.toNat) (ptr + b.toNat) t

/-- `Answer.binarize` (/repo/srg/srg.py:63-92). -/
def binarize (a : Answer) : Res Vec := do
  pyAssert (a.v.all (· != UNKNOWN))
  let q ← a.quota
  pyAssert ((a.v.zip q).all (fun p => decide (p.1 ≤ p.2)))
  .ok (binarizeLoop (List.replicate a.len.toNat 0) 0 (a.v.zip q))

end Answer

/-- `Question` (/repo/srg/srg.py:95-107). -/
structure Question where
  A : Mat
  b : Vec
  quota : Int
  bounds : Vec
  ans : Answer
  deriving DecidableEq, Repr

namespace Question

/-- `Question.__init__` (/repo/srg/srg.py:100-107) with the setters' assertions
(/repo/srg/srg.py:210-231). -/
def mk' (A : Mat) (b : Vec) (quota : Int) (bounds : Vec) (ans : Option Answer) : Res Question := do
  pyAssert (A.length == b.length)
  pyAssert (ncols A == bounds.length)
  pyAssert (b.all (fun x => decide (x ≥ 0)))
  pyAssert (decide (quota ≥ 0))
  pyAssert (bounds.all (fun x => decide (x ≥ 0)))
  match ans with
  | some a => .ok ⟨A, b, quota, bounds, a⟩
  | none => do
    let a ← Answer.default (ncols A)
    .ok ⟨A, b, quota, bounds, a⟩

end Question

/-- `vklu` (/repo/srg/srg.py:267-272).  The arrays are `int8`: `dot` of two `int8` rows is an
`int8`, `sum` is an `int64`.  numpy's `//` floors, and yields 0 (with a warning) on a zero
divisor, as `Int.fdiv` does. -/
def vklu (m : Mat) : Res (Int × Int × Int × Int) := do
  let r0 ← pyGet m 0
  let r1 ← pyGet m 1
  let v : Int := ncols m
  let k := r0.sum
  let l := i8 (dot r0 r1)
  let u := Int.fdiv (k * (k - l - 1)) (v - k - 1)
  .ok (v, k, l, u)

/-- `Question.from_matrix` (/repo/srg/srg.py:144-171). -/
def fromMatrix (m : Mat) : Res Question := do
  let (_, k, l, u) ← vklu m
  let R := m.length
  let C := ncols m
  if C ≤ R then .error .index
  else do
    let colR := col m R
    let known := colR ++ [0]
    let quotaUsed := m.map (fun r => i8 (dot (r.take (R + 1)) known))
    let quota := colR.map (fun e => if e ≠ 0 then i8 l else i8 u)
    let b0 := List.zipWith (fun q w => i8 (q - w)) quota quotaUsed
    let n := C - R - 1
    let bk := k - known.sum
    let ak : Vec := List.replicate n 1
    let A := m.map (fun r => r.drop (R + 1)) ++ [ak]
    let b := b0 ++ [bk]
    if b.any (fun x => decide (x < 0)) then .error .noSolution
    else Question.mk' A b bk ak none

/-- `SRG.append_and_return_new` (/repo/srg/srg.py:254-258). -/
def appendRow (m : Mat) (ans : Vec) : Res Mat := do
  let R := m.length
  let C := ncols m
  if C ≤ R then .error .index
  else do
    let row := col m R ++ [0] ++ ans
    pyAssert (row.length == C)
    .ok (m ++ [row])

/-- `SRG.solved` (/repo/srg/srg.py:260-262). -/
def solved (m : Mat) : Bool := m.length == ncols m

end TDS
