import Verif.Model.Solver

/-! A corrected program, for comparison with the one in /repo.

`_remove_zerokeys` (/repo/srg/gauss_elim.py:8-11) drops every entry `(0, i, v)`, including those
with `v ≠ 0`, which stand for the impossible equation `0 = v`.  The definitions here are those of
`Model/Gauss.lean` and `Model/Solver.lean` with one change: dropping such an entry raises
`NoSolution` instead.  Everything else is copied, and cites the same lines. -/

namespace TDS

namespace Gauss

/-- `_remove_zerokeys` (/repo/srg/gauss_elim.py:8-11) with the missing check: the entry `0 = v`
with `v ≠ 0` raises `NoSolution`. -/
def removeZeroKeysC (h : List Entry) : Res (List Entry) :=
  if h.any (fun e => !decide (e.k > 0) && (e.v != 0)) then .error .noSolution
  else .ok (removeZeroKeys h)

/-- `_gauss_elim` (/repo/srg/gauss_elim.py:14-42) with `removeZeroKeysC`. -/
def gaussStepC (hd : List Entry) : Res (Bool × List Entry) :=
  match ssort hd with
  | [] => .error .index
  | m :: rest => do
    pyAssert (decide (m.k > 0))
    let reducible := (rest.filter (isReducible m)).map (fun e => ⟨e.k - m.k, e.i, e.v - m.v⟩)
    let same := rest.filter (fun e => !isReducible m e)
    if reducible.isEmpty then
      .ok (false, hmerge [m] same)
    else do
      let reducible ← removeZeroKeysC reducible
      .ok (true, hmerge (hmerge [m] reducible) same)

/-- The `while hd` loop of `_elim` (/repo/srg/gauss_elim.py:56-68) with `gaussStepC`. -/
def elimLoopC : Nat → List Entry → List Entry → Res (List Entry)
  | _, hs, [] => .ok hs
  | 0, _, _ :: _ => .error .fuel
  | n + 1, hs, h :: t => do
    let (simplified, hd') ← gaussStepC (h :: t)
    if simplified then
      elimLoopC n [] (hmerge hs hd')
    else
      match ssort hd' with
      | [] => .error .index
      | m :: rest => elimLoopC n (hs ++ [m]) rest

/-- `_elim` (/repo/srg/gauss_elim.py:45-68) with `removeZeroKeysC`. -/
def elimListC (hd : List Entry) : Res (List Entry) := do
  let hd ← removeZeroKeysC hd
  if hd.length ≤ 1 then .ok hd
  else elimLoopC (elimFuel hd) [] (ssort hd)

/-- `elim` (/repo/srg/gauss_elim.py:142-145) with `elimListC`. -/
def elimC (A : Mat) (b : Vec) : Res (Mat × Vec) := do
  let hd ← encode A b
  let hd ← elimListC hd
  decode hd

end Gauss

/-- `eliminate` without its decorator (/repo/srg/solver.py:82-86), with `elimC`. -/
def eliminateBodyC (Q : Question) : Res Question := do
  if ncols Q.A = 0 then .ok Q
  else do
    let (A, b) ← Gauss.elimC Q.A Q.b
    pyAssert (b.all (fun x => decide (x ≥ 0)))
    .ok { Q with A := A, b := b }

/-- `eliminate` (/repo/srg/solver.py:80-86), with `elimC`. -/
def eliminateC (Q : Question) : Res Question := do checkAfter (← eliminateBodyC Q)

/-- One pass of the inner `while True` body (/repo/srg/solver.py:199-202), with `eliminateC`. -/
def reducePassC (Q : Question) : Res Question := do
  let Q ← reduceCol Q
  let Q ← eliminateC Q
  let Q ← zeroInB Q
  only1 Q

/-- The inner `while True` loop (/repo/srg/solver.py:197-204), with `reducePassC`. -/
def reduceLoopC : Nat → Question → Res Question
  | 0, _ => .error .fuel
  | n + 1, Q => do
    let Q' ← reducePassC Q
    if Q' = Q then .ok Q' else reduceLoopC n Q'

/-- One popped question (/repo/srg/solver.py:196-214), with `reduceLoopC`. -/
def visitC (Q : Question) : Res (List Vec × List Question) :=
  match (do
    let Q ← reduceLoopC (reduceFuel Q) Q
    if Q.ans.unknown then do
      let qs ← forkEnum Q
      .ok ([], qs)
    else do
      let a ← Q.ans.binarize
      .ok ([a], [])) with
  | .error .noSolution => .ok ([], [])
  | r => r

/-- The search over the fork tree (/repo/srg/solver.py:189-214), with `visitC`. -/
def solveTreeC : Nat → Question → Res (List Vec)
  | 0, _ => .error .fuel
  | n + 1, Q => do
    let (outs, qs) ← visitC Q
    let rest ← qs.reverse.mapM (solveTreeC n)
    .ok (outs ++ rest.flatten)

/-- `solve_question` (/repo/srg/solver.py:189-214), with `visitC`. -/
def solveQuestionC (Q : Question) : Res (List Vec) := solveTreeC (ncols Q.A + 1) Q

/-- `advance` (/repo/srg/solver.py:222-229), with `solveQuestionC`. -/
def advanceC (m : Mat) : Res (List Mat) := do
  pyAssert (!solved m)
  match fromMatrix m with
  | .error .noSolution => .ok []
  | .error e => .error e
  | .ok q => do
    let rows ← solveQuestionC q
    rows.mapM (appendRow m)

/-- The `while lst` loop of `solve` (/repo/srg/solver.py:236-239), with `advanceC`. -/
def solveLevelsC : Nat → List Mat → Res (List Mat)
  | _, [] => .ok []
  | 0, _ :: _ => .error .fuel
  | n + 1, lst => do
    let done := lst.filter solved
    let undone := lst.filter (fun m => !solved m)
    let next ← undone.mapM advanceC
    let rest ← solveLevelsC n next.flatten
    .ok (done ++ rest)

/-- `solve` (/repo/srg/solver.py:231-239), with `advanceC`. -/
def solveC (m : Mat) : Res (List Mat) := do
  let lst ← advanceC m
  solveLevelsC (ncols m + 1) lst

end TDS
