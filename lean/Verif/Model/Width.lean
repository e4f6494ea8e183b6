import Verif.Model.Solver

/-! The search of /repo/srg/solver.py with the number format left open.

The model of the search reduces a value modulo 256 wherever numpy stores it in an `int8` array.
Which arrays those are follows from numpy's promotion rules and from the `dtype` arguments in the
source.  Here the ten places where a computed number is stored get a rounding function each, so
that no promotion rule is built in.  All definitions are copies of the ones in `Model/Srg.lean`,
`Model/Gauss.lean` and `Model/Solver.lean`, which cite the source lines. -/

namespace TDS

/-- The places where the search stores a computed number
(/repo/srg/srg.py:152-155, 270; /repo/srg/gauss_elim.py:132; /repo/srg/solver.py:76, 132, 153, 176). -/
inductive Site where
  /-- `l` in `vklu` (/repo/srg/srg.py:270). -/
  | inter
  /-- `quota_used` in `from_matrix` (/repo/srg/srg.py:152). -/
  | used
  /-- `l` in the array of quotas (/repo/srg/srg.py:153). -/
  | quotaL
  /-- `u` in the array of quotas (/repo/srg/srg.py:153). -/
  | quotaU
  /-- Their difference, the right-hand side (/repo/srg/srg.py:155). -/
  | rhs
  /-- `b` in `_decode` (/repo/srg/gauss_elim.py:132). -/
  | decoded
  /-- Merged bounds in `reduce_col` (/repo/srg/solver.py:67-76). -/
  | merged
  /-- The product in `only_1_element_in_row` (/repo/srg/solver.py:132). -/
  | update
  /-- `b - b_update` in `only_1_element_in_row` (/repo/srg/solver.py:153). -/
  | reduced
  /-- The new right-hand side in `fork_enum` (/repo/srg/solver.py:176). -/
  | forked
  deriving DecidableEq, Repr

/-- What storing does to a number, place by place (/repo/srg/srg.py:7-9). -/
abbrev Width := Site → Int → Int

/-- `vklu` (/repo/srg/srg.py:267-272). -/
def vkluW (w : Width) (m : Mat) : Res (Int × Int × Int × Int) := do
  let r0 ← pyGet m 0
  let r1 ← pyGet m 1
  let v : Int := ncols m
  let k := r0.sum
  let l := w .inter (dot r0 r1)
  let u := Int.fdiv (k * (k - l - 1)) (v - k - 1)
  .ok (v, k, l, u)

/-- `Question.from_matrix` (/repo/srg/srg.py:144-171). -/
def fromMatrixW (w : Width) (m : Mat) : Res Question := do
  let (_, k, l, u) ← vkluW w m
  let R := m.length
  let C := ncols m
  if C ≤ R then .error .index
  else do
    let colR := col m R
    let known := colR ++ [0]
    let quotaUsed := m.map (fun r => w .used (dot (r.take (R + 1)) known))
    let quota := colR.map (fun e => if e ≠ 0 then w .quotaL l else w .quotaU u)
    let b0 := List.zipWith (fun q x => w .rhs (q - x)) quota quotaUsed
    let n := C - R - 1
    let bk := k - known.sum
    let ak : Vec := List.replicate n 1
    let A := m.map (fun r => r.drop (R + 1)) ++ [ak]
    let b := b0 ++ [bk]
    if b.any (fun x => decide (x < 0)) then .error .noSolution
    else Question.mk' A b bk ak none

/-- `_decode` (/repo/srg/gauss_elim.py:109-133). -/
def Gauss.decodeW (w : Width) (hd : List Entry) : Res (Mat × Vec) :=
  match hd with
  | [] => .error .stopIteration
  | _ => do
    let rows ← hd.mapM (fun e => dec2bin e.k)
    let C := (rows.map List.length).foldl max 0
    if decide (C > 0) && rows.any List.isEmpty then .error .valueErr
    else .ok (rows.map (padLeft C), hd.map (fun e => w .decoded e.v))

/-- `elim` (/repo/srg/gauss_elim.py:142-145). -/
def Gauss.elimW (w : Width) (A : Mat) (b : Vec) : Res (Mat × Vec) := do
  let hd ← encode A b
  let hd ← elimList hd
  decodeW w hd

/-- `reduce_col` without its decorator (/repo/srg/solver.py:58-77). -/
def reduceColBodyW (w : Width) (Q : Question) : Res Question := do
  if ncols Q.A < 2 then .ok Q
  else do
    let enc ← Unique.encode Q.A
    let d := groups enc
    let keep := d.map (fun g => g.2.headD 0)
    let drop := (d.map (fun g => g.2.tail)).flatten
    let boundsNew := d.map (fun g => w .merged ((g.2.map (fun j => Q.bounds.getD j 0)).sum))
    let ul := Q.ans.unknownLoc
    let dropAns ← drop.mapM (pyGet ul)
    let v' := npDelete dropAns Q.ans.v
    let loc' := npDelete dropAns Q.ans.loc
    let A' := Q.A.map (fun r => keep.map (fun j => r.getD j 0))
    pyAssert (boundsNew.all (fun x => decide (x ≥ 0)))
    let ans' ← Answer.mk' v' loc' Q.ans.len
    pyAssert (ans'.unknownLoc.length == ncols A')
    .ok { Q with A := A', bounds := boundsNew, ans := ans' }

/-- `reduce_col` (/repo/srg/solver.py:56-77). -/
def reduceColW (w : Width) (Q : Question) : Res Question := do checkAfter (← reduceColBodyW w Q)

/-- `eliminate` without its decorator (/repo/srg/solver.py:82-86). -/
def eliminateBodyW (w : Width) (Q : Question) : Res Question := do
  if ncols Q.A = 0 then .ok Q
  else do
    let (A, b) ← Gauss.elimW w Q.A Q.b
    pyAssert (b.all (fun x => decide (x ≥ 0)))
    .ok { Q with A := A, b := b }

/-- `eliminate` (/repo/srg/solver.py:80-86). -/
def eliminateW (w : Width) (Q : Question) : Res Question := do checkAfter (← eliminateBodyW w Q)

/-- `only_1_element_in_row` without its decorator, for a given iteration order `rcs` of the set
`one_element_row_locs(A)` (/repo/srg/solver.py:114-155). -/
def only1WithW (w : Width) (rcs : List (Nat × Nat)) (Q : Question) : Res Question := do
  let ul := Q.ans.unknownLoc
  pyAssert (ul.length == Q.bounds.length)
  if rcs.isEmpty then .ok Q
  else do
    let cs := rcs.map Prod.snd
    let subx := rcs.map (fun rc => Q.b.getD rc.1 0)
    let upd := Q.A.map (fun row => w .update (dot (cs.map (fun c => row.getD c 0)) subx))
    if rcs.any (fun rc => decide (Q.b.getD rc.1 0 > Q.bounds.getD rc.2 0)) then .error .noSolution
    else if subx.sum > Q.quota then .error .noSolution
    else if (upd.zip Q.b).any (fun p => decide (p.1 > p.2)) then .error .noSolution
    else do
      let v ← assignAll ul Q.ans.v (rcs.map (fun rc => (rc.2, Q.b.getD rc.1 0)))
      let quota := Q.quota - subx.sum
      pyAssert (decide (quota ≥ 0))
      let b' := List.zipWith (fun x y => w .reduced (x - y)) Q.b upd
      pyAssert (b'.all (fun x => decide (x ≥ 0)))
      let bounds' := npDelete cs Q.bounds
      pyAssert (bounds'.all (fun x => decide (x ≥ 0)))
      .ok { A := Q.A.map (npDelete cs), b := b', quota := quota, bounds := bounds',
            ans := { Q.ans with v := v } }

/-- `only_1_element_in_row` (/repo/srg/solver.py:112-155). -/
def only1W (w : Width) (Q : Question) : Res Question := do
  checkAfter (← only1WithW w (Bounds.oneElementRowLocs Q.A) Q)

/-- `fork_enum` (/repo/srg/solver.py:159-183). -/
def forkEnumW (w : Width) (Q : Question) : Res (List Question) := do
  let Q ← checkAfter Q
  let ul := Q.ans.unknownLoc
  pyAssert (decide (ul.length > 0))
  let minloc ← npArgmin Q.bounds
  let newBound := npDelete [minloc] Q.bounds
  let (acol, newA) := Fork.popCol Q.A minloc
  let qs ← Fork.enum Q.quota Q.bounds minloc
  let outs ← qs.mapM (fun qr => do
    let newB := List.zipWith (fun b a => w .forked (b - a * qr.1)) Q.b acol
    if newB.any (fun x => decide (x < 0)) then .ok none
    else do
      let p ← pyGet ul minloc
      let ans := { Q.ans with v := Q.ans.v.set p qr.1 }
      let q ← Question.mk' newA newB qr.2 newBound (some ans)
      .ok (some q))
  .ok (outs.filterMap id)

/-- One pass of the inner `while True` body (/repo/srg/solver.py:199-202). -/
def reducePassW (w : Width) (Q : Question) : Res Question := do
  let Q ← reduceColW w Q
  let Q ← eliminateW w Q
  let Q ← zeroInB Q
  only1W w Q

/-- The inner `while True` loop (/repo/srg/solver.py:197-204) with a step budget. -/
def reduceLoopW (w : Width) : Nat → Question → Res Question
  | 0, _ => .error .fuel
  | n + 1, Q => do
    let Q' ← reducePassW w Q
    if Q' = Q then .ok Q' else reduceLoopW w n Q'

/-- What the outer loop of `solve_question` does with one popped question
(/repo/srg/solver.py:196-214). -/
def visitW (w : Width) (Q : Question) : Res (List Vec × List Question) :=
  match (do
    let Q ← reduceLoopW w (reduceFuel Q) Q
    if Q.ans.unknown then do
      let qs ← forkEnumW w Q
      .ok ([], qs)
    else do
      let a ← Q.ans.binarize
      .ok ([a], [])) with
  | .error .noSolution => .ok ([], [])
  | r => r

/-- `solve_question` as recursion over the fork tree (/repo/srg/solver.py:189-214). -/
def solveTreeW (w : Width) : Nat → Question → Res (List Vec)
  | 0, _ => .error .fuel
  | n + 1, Q => do
    let (outs, qs) ← visitW w Q
    let rest ← qs.reverse.mapM (solveTreeW w n)
    .ok (outs ++ rest.flatten)

/-- `solve_question` (/repo/srg/solver.py:189-214). -/
def solveQuestionW (w : Width) (Q : Question) : Res (List Vec) :=
  solveTreeW w (ncols Q.A + 1) Q

/-- `advance` (/repo/srg/solver.py:222-229). -/
def advanceW (w : Width) (m : Mat) : Res (List Mat) := do
  pyAssert (!solved m)
  match fromMatrixW w m with
  | .error .noSolution => .ok []
  | .error e => .error e
  | .ok q => do
    let rows ← solveQuestionW w q
    rows.mapM (appendRow m)

/-- The `while lst` loop of `solve` (/repo/srg/solver.py:236-239) with a step budget. -/
def solveLevelsW (w : Width) : Nat → List Mat → Res (List Mat)
  | _, [] => .ok []
  | 0, _ :: _ => .error .fuel
  | n + 1, lst => do
    let done := lst.filter solved
    let undone := lst.filter (fun m => !solved m)
    let next ← undone.mapM (advanceW w)
    let rest ← solveLevelsW w n next.flatten
    .ok (done ++ rest)

/-- `solve` (/repo/srg/solver.py:231-239), as the list of yielded matrices. -/
def solveW (w : Width) (m : Mat) : Res (List Mat) := do
  let lst ← advanceW w m
  solveLevelsW w (ncols m + 1) lst

end TDS
