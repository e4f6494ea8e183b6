import Verif.Model.Np

/-! Model of /repo/srg/gauss_elim.py -/

namespace TDS.Gauss

/-- One tuple `(k, i, v)`: encoded row, original row index, right-hand side
(/repo/srg/gauss_elim.py:95). -/
structure Entry where
  k : Int
  i : Nat
  v : Int
  deriving DecidableEq, Repr

/-- Python tuple comparison `a <= b` on `(k, i, v)` (/repo/srg/gauss_elim.py:24, 38, 53, 60). -/
def Entry.le (a b : Entry) : Bool :=
  if a.k < b.k then true
  else if b.k < a.k then false
  else if a.i < b.i then true
  else if b.i < a.i then false
  else decide (a.v ≤ b.v)

/-- Insert in a sorted list (/repo/srg/gauss_elim.py:53). -/
def sinsert (x : Entry) : List Entry → List Entry
  | [] => [x]
  | y :: ys => if x.le y then x :: y :: ys else y :: sinsert x ys

/-- `hd.sort()`; also the sequence obtained by `heappop`-ing a heap until it is empty
(/repo/srg/gauss_elim.py:53, 24, 28). -/
def ssort : List Entry → List Entry
  | [] => []
  | x :: xs => sinsert x (ssort xs)

/-- Inner loop of `hmerge`: merge `x :: xs` into a list, `rest` being the merge with `xs`
(/repo/srg/gauss_elim.py:38, 41, 60). -/
def hmergeStep (x : Entry) (xs : List Entry) (rest : List Entry → List Entry) :
    List Entry → List Entry
  | [] => x :: xs
  | y :: ys => if x.le y then x :: rest (y :: ys) else y :: hmergeStep x xs rest ys

/-- `list(heapq.merge(xs, ys))` for sorted inputs (/repo/srg/gauss_elim.py:38, 41, 60). -/
def hmerge : List Entry → List Entry → List Entry
  | [] => fun ys => ys
  | x :: xs => hmergeStep x xs (hmerge xs)

/-- `_remove_zerokeys` (/repo/srg/gauss_elim.py:8-11). -/
def removeZeroKeys (h : List Entry) : List Entry := h.filter (fun e => decide (e.k > 0))

/-- `mk & k == mk` (/repo/srg/gauss_elim.py:29); both keys are positive here. -/
def covers (mk k : Int) : Bool := (mk.toNat &&& k.toNat) == mk.toNat

/-- The test of /repo/srg/gauss_elim.py:29. -/
def isReducible (m e : Entry) : Bool := covers m.k e.k && decide (e.v ≥ m.v)

/-- `_gauss_elim` (/repo/srg/gauss_elim.py:14-42).  Returns the flag and the new content of
`hd`.  The list `hd` is a heap whenever this is called, so popping until empty enumerates it
in sorted order (`ssort`); C57 proves this against `Model/HeapQ.lean`. -/
def gaussStep (hd : List Entry) : Res (Bool × List Entry) :=
  match ssort hd with
  | [] => .error .index
  | m :: rest => do
    pyAssert (decide (m.k > 0))
    let reducible := (rest.filter (isReducible m)).map (fun e => ⟨e.k - m.k, e.i, e.v - m.v⟩)
    let same := rest.filter (fun e => !isReducible m e)
    if reducible.isEmpty then
      .ok (false, hmerge [m] same)
    else
      .ok (true, hmerge (hmerge [m] (removeZeroKeys reducible)) same)

/-- The `while hd` loop of `_elim` (/repo/srg/gauss_elim.py:56-68), with a step budget.
State: `hs` and `hd`. -/
def elimLoop : Nat → List Entry → List Entry → Res (List Entry)
  | _, hs, [] => .ok hs
  | 0, _, _ :: _ => .error .fuel
  | n + 1, hs, h :: t => do
    let (simplified, hd') ← gaussStep (h :: t)
    if simplified then
      elimLoop n [] (hmerge hs hd')
    else
      match ssort hd' with
      | [] => .error .index
      | m :: rest => elimLoop n (hs ++ [m]) rest

/-- Step budget given to `elimLoop`; proved sufficient (/repo/srg/gauss_elim.py:57). -/
def elimFuel (hd : List Entry) : Nat :=
  ((hd.map (fun e => e.k.toNat)).sum + 1) * (hd.length + 1)

/-- `_elim` (/repo/srg/gauss_elim.py:45-68). -/
def elimList (hd : List Entry) : Res (List Entry) :=
  let hd := removeZeroKeys hd
  if hd.length ≤ 1 then .ok hd
  else elimLoop (elimFuel hd) [] (ssort hd)

/-- One row of `_sum` in `_encode` (/repo/srg/gauss_elim.py:90-93), in `int64`. -/
def rowKey (row : Vec) : Int :=
  let C := row.length
  (List.range (C - 1)).reverse.foldl
    (fun s c => i64 (s + i64 (row.getD c 0 * 2 ^ (C - 1 - c)))) (row.getD (C - 1) 0)

/-- `_encode` (/repo/srg/gauss_elim.py:71-95). -/
def encode (A : Mat) (b : Vec) : Res (List Entry) := do
  pyAssert (b.length == A.length)
  if ncols A = 0 then .error .index
  else .ok ((A.zip b).zipIdx.map (fun p => ⟨rowKey p.1.1, p.2, p.1.2⟩))

/-- Body of `_dec2bin` (/repo/srg/gauss_elim.py:100-106) before the final reversal, with a step
budget: least significant bit first.  Python's `%` and `>>` floor, so the loop never ends on a
negative number. -/
def dec2binLoop : Nat → Int → Res Vec
  | 0, a => if a = 0 then .ok [] else .error .fuel
  | n + 1, a => if a = 0 then .ok [] else do
    let t ← dec2binLoop n (a / 2)
    .ok (a % 2 :: t)

/-- `_dec2bin` (/repo/srg/gauss_elim.py:100-106).  Keys are `int64`, so 64 halvings suffice for a
nonnegative key. -/
def dec2bin (a : Int) : Res Vec := do
  let t ← dec2binLoop 64 a
  .ok t.reverse

/-- `A[r, -len(_a):] = _a` on a zero row of width `C` (/repo/srg/gauss_elim.py:130), for
`1 ≤ len(_a) ≤ C`. -/
def padLeft (C : Nat) (a : Vec) : Vec := List.replicate (C - a.length) 0 ++ a

/-- `_decode` (/repo/srg/gauss_elim.py:109-133).  On an empty list `next(z)` raises
`StopIteration`.  For a zero key `A[r, -0:] = _a` is an assignment of an empty array to a whole row,
a `ValueError` unless the row is empty too. -/
def decode (hd : List Entry) : Res (Mat × Vec) :=
  match hd with
  | [] => .error .stopIteration
  | _ => do
    let rows ← hd.mapM (fun e => dec2bin e.k)
    let C := (rows.map List.length).foldl max 0
    if decide (C > 0) && rows.any List.isEmpty then .error .valueErr
    else .ok (rows.map (padLeft C), hd.map (fun e => i8 e.v))

/-- `elim` (/repo/srg/gauss_elim.py:142-145). -/
def elim (A : Mat) (b : Vec) : Res (Mat × Vec) := do
  let hd ← encode A b
  let hd ← elimList hd
  decode hd

end TDS.Gauss
