import Verif.Model.Solver

/-! A second corrected program, for comparison with the one in /repo.

The decorator `raiseExceptionIfNotSolvableAfterwards` (/repo/srg/solver.py:29-52) compares what the
bounds allow with the quota that is still to be placed, but only under the guard
`Q.bounds.size > 0` (/repo/srg/solver.py:43).  So the comparison is skipped exactly when no unknown
is left.  The definitions here are those of `Model/Solver.lean` without that guard.  Everything else
is copied, and cites the same lines. -/

namespace TDS

/-- `raiseExceptionIfNotSolvableAfterwards` (/repo/srg/solver.py:29-52), with `Q.bounds.size > 0 and`
removed from line 43. -/
def checkAfterD (Q : Question) : Res Question := do
  let C := ncols Q.A
  if C == 0 && Q.b.any (· != 0) then .error .noSolution
  else do
    pyAssert (Q.bounds.length == C)
    if Q.bounds.sum < Q.quota then .error .noSolution
    else do
      let q ← Q.ans.quota
      if (Q.ans.v.zip q).any (fun p => decide (p.1 > p.2)) then .error .noSolution
      else .ok Q

/-- `reduce_col` (/repo/srg/solver.py:56-77), with `checkAfterD`. -/
def reduceColD (Q : Question) : Res Question := do checkAfterD (← reduceColBody Q)

/-- `eliminate` (/repo/srg/solver.py:80-86), with `checkAfterD`. -/
def eliminateD (Q : Question) : Res Question := do checkAfterD (← eliminateBody Q)

/-- `zero_in_b` (/repo/srg/solver.py:89-108), with `checkAfterD`. -/
def zeroInBD (Q : Question) : Res Question := do checkAfterD (← zeroInBBody Q)

/-- `only_1_element_in_row` (/repo/srg/solver.py:112-155), with `checkAfterD`. -/
def only1D (Q : Question) : Res Question := do
  checkAfterD (← only1With (Bounds.oneElementRowLocs Q.A) Q)

/-- `fork_enum` (/repo/srg/solver.py:159-183), with `checkAfterD`. -/
def forkEnumD (Q : Question) : Res (List Question) := do
  let Q ← checkAfterD Q
  let ul := Q.ans.unknownLoc
  pyAssert (decide (ul.length > 0))
  let minloc ← npArgmin Q.bounds
  let newBound := npDelete [minloc] Q.bounds
  let (acol, newA) := Fork.popCol Q.A minloc
  let qs ← Fork.enum Q.quota Q.bounds minloc
  let outs ← qs.mapM (fun qr => do
    let newB := List.zipWith (fun b a => i8 (b - a * qr.1)) Q.b acol
    if newB.any (fun x => decide (x < 0)) then .ok none
    else do
      let p ← pyGet ul minloc
      let ans := { Q.ans with v := Q.ans.v.set p qr.1 }
      let q ← Question.mk' newA newB qr.2 newBound (some ans)
      .ok (some q))
  .ok (outs.filterMap id)

/-- One pass of the inner `while True` body (/repo/srg/solver.py:199-202), with `checkAfterD`. -/
def reducePassD (Q : Question) : Res Question := do
  let Q ← reduceColD Q
  let Q ← eliminateD Q
  let Q ← zeroInBD Q
  only1D Q

/-- The inner `while True` loop (/repo/srg/solver.py:197-204), with `reducePassD`. -/
def reduceLoopD : Nat → Question → Res Question
  | 0, _ => .error .fuel
  | n + 1, Q => do
    let Q' ← reducePassD Q
    if Q' = Q then .ok Q' else reduceLoopD n Q'

/-- One popped question (/repo/srg/solver.py:196-214), with `reduceLoopD` and `forkEnumD`. -/
def visitD (Q : Question) : Res (List Vec × List Question) :=
  match (do
    let Q ← reduceLoopD (reduceFuel Q) Q
    if Q.ans.unknown then do
      let qs ← forkEnumD Q
      .ok ([], qs)
    else do
      let a ← Q.ans.binarize
      .ok ([a], [])) with
  | .error .noSolution => .ok ([], [])
  | r => r

/-- The search over the fork tree (/repo/srg/solver.py:189-214), with `visitD`. -/
def solveTreeD : Nat → Question → Res (List Vec)
  | 0, _ => .error .fuel
  | n + 1, Q => do
    let (outs, qs) ← visitD Q
    let rest ← qs.reverse.mapM (solveTreeD n)
    .ok (outs ++ rest.flatten)

/-- `solve_question` (/repo/srg/solver.py:189-214), with `visitD`. -/
def solveQuestionD (Q : Question) : Res (List Vec) := solveTreeD (ncols Q.A + 1) Q

/-- `advance` (/repo/srg/solver.py:222-229), with `solveQuestionD`. -/
def advanceD (m : Mat) : Res (List Mat) := do
  pyAssert (!solved m)
  match fromMatrix m with
  | .error .noSolution => .ok []
  | .error e => .error e
  | .ok q => do
    let rows ← solveQuestionD q
    rows.mapM (appendRow m)

/-- The `while lst` loop of `solve` (/repo/srg/solver.py:236-239), with `advanceD`. -/
def solveLevelsD : Nat → List Mat → Res (List Mat)
  | _, [] => .ok []
  | 0, _ :: _ => .error .fuel
  | n + 1, lst => do
    let done := lst.filter solved
    let undone := lst.filter (fun m => !solved m)
    let next ← undone.mapM advanceD
    let rest ← solveLevelsD n next.flatten
    .ok (done ++ rest)

/-- `solve` (/repo/srg/solver.py:231-239), with `advanceD`. -/
def solveD (m : Mat) : Res (List Mat) := do
  let lst ← advanceD m
  solveLevelsD (ncols m + 1) lst

end TDS
