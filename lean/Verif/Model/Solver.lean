import Verif.Model.Gauss
import Verif.Model.Small
import Verif.Model.Srg

/-! Model of /repo/srg/solver.py -/

namespace TDS

/-- Position a slice bound denotes on an axis of length `n`: negative bounds count from the end,
and the result is clamped (numpy basic slicing) (/repo/srg/solver.py:20-22). -/
def pyIdx (n : Nat) (i : Int) : Nat := if i < 0 then ((n : Int) + i).toNat else min i.toNat n

/-- `a[i:j] = 1` on a 1-d array (/repo/srg/solver.py:20-22). -/
def setSlice (a : Vec) (i j : Int) : Vec :=
  a.mapIdx (fun n x => if pyIdx a.length i ≤ n ∧ n < pyIdx a.length j then 1 else x)

/-- `_seed` (/repo/srg/solver.py:16-26).  `zeros((2, v))` raises ValueError for negative `v`, and
`s[0, 1]` raises IndexError when `v < 2`. -/
def seed (v k l _u : Int) : Res Mat :=
  if v < 0 then .error .valueErr
  else if v < 2 then .error .index
  else
    let rem := k - l - 1
    let r0 := setSlice (List.replicate v.toNat 0) 1 (k + 1)
    let r1 := setSlice (List.replicate v.toNat 0) 2 (l + 2)
    let r1 := setSlice r1 (k + 1) (k + rem + 1)
    let r1 := r1.set 0 (r0.getD 1 0)
    .ok [r0, r1]

/-- The checks run after each step by the decorator `raiseExceptionIfNotSolvableAfterwards`
(/repo/srg/solver.py:29-52). -/
def checkAfter (Q : Question) : Res Question := do
  let C := ncols Q.A
  if C == 0 && Q.b.any (· != 0) then .error .noSolution
  else do
    pyAssert (Q.bounds.length == C)
    if Q.bounds.length > 0 && decide (Q.bounds.sum < Q.quota) then .error .noSolution
    else do
      let q ← Q.ans.quota
      if (Q.ans.v.zip q).any (fun p => decide (p.1 > p.2)) then .error .noSolution
      else .ok Q

/-- `d[category].append(loc)` on an insertion-ordered `defaultdict(list)` (/repo/srg/solver.py:65). -/
def groupAdd (d : List (Int × List Nat)) (cat : Int) (loc : Nat) : List (Int × List Nat) :=
  match d with
  | [] => [(cat, [loc])]
  | (c, ls) :: t => if c = cat then (c, ls ++ [loc]) :: t else (c, ls) :: groupAdd t cat loc

/-- Grouping of equal column codes (/repo/srg/solver.py:62-65). -/
def groups (enc : List Int) : List (Int × List Nat) :=
  enc.zipIdx.foldl (fun d p => groupAdd d p.1 p.2) []

/-- `reduce_col` without its decorator (/repo/srg/solver.py:58-77). -/
def reduceColBody (Q : Question) : Res Question := do
  if ncols Q.A < 2 then .ok Q
  else do
    let enc ← Unique.encode Q.A
    let d := groups enc
    let keep := d.map (fun g => g.2.headD 0)
    let drop := (d.map (fun g => g.2.tail)).flatten
    let boundsNew := d.map (fun g => i8 ((g.2.map (fun j => Q.bounds.getD j 0)).sum))
    let ul := Q.ans.unknownLoc
    let dropAns ← drop.mapM (pyGet ul)
    let v' := npDelete dropAns Q.ans.v
    let loc' := npDelete dropAns Q.ans.loc
    let A' := Q.A.map (fun r => keep.map (fun j => r.getD j 0))
    pyAssert (boundsNew.all (fun x => decide (x ≥ 0)))
    let ans' ← Answer.mk' v' loc' Q.ans.len
    pyAssert (ans'.unknownLoc.length == ncols A')
    .ok { Q with A := A', bounds := boundsNew, ans := ans' }

/-- `reduce_col` (/repo/srg/solver.py:56-77). -/
def reduceCol (Q : Question) : Res Question := do checkAfter (← reduceColBody Q)

/-- `eliminate` without its decorator (/repo/srg/solver.py:82-86). -/
def eliminateBody (Q : Question) : Res Question := do
  if ncols Q.A = 0 then .ok Q
  else do
    let (A, b) ← Gauss.elim Q.A Q.b
    pyAssert (b.all (fun x => decide (x ≥ 0)))
    .ok { Q with A := A, b := b }

/-- `eliminate` (/repo/srg/solver.py:80-86). -/
def eliminate (Q : Question) : Res Question := do checkAfter (← eliminateBody Q)

/-- `for (c, x): ans._v[unknown_loc[c]] = x` (/repo/srg/solver.py:103-105 and 147-149).  `ul`
is computed once before the loop. -/
def assignAll (ul : List Nat) (v : Vec) : List (Nat × Int) → Res Vec
  | [] => .ok v
  | (c, x) :: t => do
    let p ← pyGet ul c
    assignAll ul (v.set p x) t

/-- `zero_in_b` without its decorator (/repo/srg/solver.py:91-108). -/
def zeroInBBody (Q : Question) : Res Question := do
  let bounds := Bounds.lowerUpperBound Q.A Q.b Q.bounds
  let ul := Q.ans.unknownLoc
  pyAssert (ul.length == bounds.length)
  let z := Bounds.zeroBoundLoc bounds
  let v ← assignAll ul Q.ans.v (z.map (fun j => (j, 0)))
  let bounds' := npDelete z bounds
  pyAssert (bounds'.all (fun x => decide (x ≥ 0)))
  .ok { Q with A := Q.A.map (npDelete z), bounds := bounds', ans := { Q.ans with v := v } }

/-- `zero_in_b` (/repo/srg/solver.py:89-108). -/
def zeroInB (Q : Question) : Res Question := do checkAfter (← zeroInBBody Q)

/-- `only_1_element_in_row` without its decorator, for a given iteration order `rcs` of the set
`one_element_row_locs(A)` (/repo/srg/solver.py:114-155). -/
def only1With (rcs : List (Nat × Nat)) (Q : Question) : Res Question := do
  let ul := Q.ans.unknownLoc
  pyAssert (ul.length == Q.bounds.length)
  if rcs.isEmpty then .ok Q
  else do
    let cs := rcs.map Prod.snd
    let subx := rcs.map (fun rc => Q.b.getD rc.1 0)
    let upd := Q.A.map (fun row => i8 (dot (cs.map (fun c => row.getD c 0)) subx))
    if rcs.any (fun rc => decide (Q.b.getD rc.1 0 > Q.bounds.getD rc.2 0)) then .error .noSolution
    else if subx.sum > Q.quota then .error .noSolution
    else if (upd.zip Q.b).any (fun p => decide (p.1 > p.2)) then .error .noSolution
    else do
      let v ← assignAll ul Q.ans.v (rcs.map (fun rc => (rc.2, Q.b.getD rc.1 0)))
      let quota := Q.quota - subx.sum
      pyAssert (decide (quota ≥ 0))
      let b' := List.zipWith (fun x y => i8 (x - y)) Q.b upd
      pyAssert (b'.all (fun x => decide (x ≥ 0)))
      let bounds' := npDelete cs Q.bounds
      pyAssert (bounds'.all (fun x => decide (x ≥ 0)))
      .ok { A := Q.A.map (npDelete cs), b := b', quota := quota, bounds := bounds',
            ans := { Q.ans with v := v } }

/-- `only_1_element_in_row` (/repo/srg/solver.py:112-155). -/
def only1 (Q : Question) : Res Question := do
  checkAfter (← only1With (Bounds.oneElementRowLocs Q.A) Q)

/-- `fork_enum` (/repo/srg/solver.py:159-183), as the list of yielded questions. The decorator's
checks run once, before the first element is produced. -/
def forkEnum (Q : Question) : Res (List Question) := do
  let Q ← checkAfter Q
  let ul := Q.ans.unknownLoc
  pyAssert (decide (ul.length > 0))
  let minloc ← npArgmin Q.bounds
  let newBound := npDelete [minloc] Q.bounds
  let (acol, newA) := Fork.popCol Q.A minloc
  let qs ← Fork.enum Q.quota Q.bounds minloc
  let outs ← qs.mapM (fun qr => do
    let newB := List.zipWith (fun b a => i8 (b - a * qr.1)) Q.b acol
    if newB.any (fun x => decide (x < 0)) then .ok none
    else do
      let p ← pyGet ul minloc
      let ans := { Q.ans with v := Q.ans.v.set p qr.1 }
      let q ← Question.mk' newA newB qr.2 newBound (some ans)
      .ok (some q))
  .ok (outs.filterMap id)

/-- One pass of the inner `while True` body (/repo/srg/solver.py:199-202). -/
def reducePass (Q : Question) : Res Question := do
  let Q ← reduceCol Q
  let Q ← eliminate Q
  let Q ← zeroInB Q
  only1 Q

/-- The inner `while True` loop (/repo/srg/solver.py:197-204) with a step budget. -/
def reduceLoop : Nat → Question → Res Question
  | 0, _ => .error .fuel
  | n + 1, Q => do
    let Q' ← reducePass Q
    if Q' = Q then .ok Q' else reduceLoop n Q'

/-- Step budget for `reduceLoop`; proved sufficient (/repo/srg/solver.py:197). -/
def reduceFuel (Q : Question) : Nat := 2 * ncols Q.A + 3

/-- What the outer loop of `solve_question` does with one popped question
(/repo/srg/solver.py:196-214): the answers it yields and the questions it pushes. -/
def visit (Q : Question) : Res (List Vec × List Question) :=
  match (do
    let Q ← reduceLoop (reduceFuel Q) Q
    if Q.ans.unknown then do
      let qs ← forkEnum Q
      .ok ([], qs)
    else do
      let a ← Q.ans.binarize
      .ok ([a], [])) with
  | .error .noSolution => .ok ([], [])
  | r => r

/-- The outer `while stack` loop (/repo/srg/solver.py:193-214) with a step budget; the head of
`stack` is its top, and the result lists the yielded rows in order. -/
def solveLoop : Nat → List Question → Res (List Vec)
  | _, [] => .ok []
  | 0, _ :: _ => .error .fuel
  | n + 1, Q :: stack => do
    let (outs, qs) ← visit Q
    let rest ← solveLoop n (qs.reverse ++ stack)
    .ok (outs ++ rest)

/-- `solve_question` as recursion over the fork tree instead of an explicit stack: children
are pushed in order and popped last-first.  `solveLoop` is proved to compute the same list
(/repo/srg/solver.py:189-214). -/
def solveTree : Nat → Question → Res (List Vec)
  | 0, _ => .error .fuel
  | n + 1, Q => do
    let (outs, qs) ← visit Q
    let rest ← qs.reverse.mapM (solveTree n)
    .ok (outs ++ rest.flatten)

/-- `solve_question` (/repo/srg/solver.py:189-214). -/
def solveQuestion (Q : Question) : Res (List Vec) := solveTree (ncols Q.A + 1) Q

/-- `advance` (/repo/srg/solver.py:222-229). -/
def advance (m : Mat) : Res (List Mat) := do
  pyAssert (!solved m)
  match fromMatrix m with
  | .error .noSolution => .ok []
  | .error e => .error e
  | .ok q => do
    let rows ← solveQuestion q
    rows.mapM (appendRow m)

/-- The `while lst` loop of `solve` (/repo/srg/solver.py:236-239) with a step budget. -/
def solveLevels : Nat → List Mat → Res (List Mat)
  | _, [] => .ok []
  | 0, _ :: _ => .error .fuel
  | n + 1, lst => do
    let done := lst.filter solved
    let undone := lst.filter (fun m => !solved m)
    let next ← undone.mapM advance
    let rest ← solveLevels n next.flatten
    .ok (done ++ rest)

/-- `solve` (/repo/srg/solver.py:231-239), as the list of yielded matrices. -/
def solve (m : Mat) : Res (List Mat) := do
  let lst ← advance m
  solveLevels (ncols m + 1) lst

end TDS
