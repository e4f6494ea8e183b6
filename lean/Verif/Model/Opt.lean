import Verif.Model.Main

/-! The program started with `python -O`, which leaves out every `assert` statement.

The definitions are those of `Model/Srg.lean`, `Gauss.lean`, `Solver.lean`, `Small.lean`,
`Sorter.lean` and `Main.lean` without the assertions; everything else is copied, and cites the same
lines.  Where an assertion would have failed, the arrays may have shapes and signs for which the
copied definitions do not claim to follow numpy; the theorems about such inputs are only those
on `main` and `swap_and_verify`, where the statements behind the assertion still make sense. -/

namespace TDS

namespace Answer

/-- `Answer.default` (/repo/srg/srg.py:29-31), no assertions. -/
def defaultN (n : Nat) : Answer :=
  ⟨List.replicate n UNKNOWN, (List.range n).map (fun (i : Nat) => (i : Int)), n⟩

/-- `Answer.quota` (/repo/srg/srg.py:33-38), no assertions. -/
def quotaN (a : Answer) : Vec := npDiff (a.loc ++ [a.len])

/-- `Answer.binarize` (/repo/srg/srg.py:63-92), no assertions. -/
def binarizeN (a : Answer) : Vec :=
  binarizeLoop (List.replicate a.len.toNat 0) 0 (a.v.zip a.quotaN)

end Answer

/-- `Question.__init__` (/repo/srg/srg.py:100-107), no assertions. -/
def Question.mkN (A : Mat) (b : Vec) (quota : Int) (bounds : Vec) (ans : Option Answer) :
    Question :=
  match ans with
  | some a => ⟨A, b, quota, bounds, a⟩
  | none => ⟨A, b, quota, bounds, Answer.defaultN (ncols A)⟩

/-- `Question.from_matrix` (/repo/srg/srg.py:144-171), no assertions. -/
def fromMatrixN (m : Mat) : Res Question := do
  let (_, k, l, u) ← vklu m
  let R := m.length
  let C := ncols m
  if C ≤ R then .error .index
  else do
    let colR := col m R
    let known := colR ++ [0]
    let quotaUsed := m.map (fun r => i8 (dot (r.take (R + 1)) known))
    let quota := colR.map (fun e => if e ≠ 0 then i8 l else i8 u)
    let b0 := List.zipWith (fun q w => i8 (q - w)) quota quotaUsed
    let n := C - R - 1
    let bk := k - known.sum
    let ak : Vec := List.replicate n 1
    let A := m.map (fun r => r.drop (R + 1)) ++ [ak]
    let b := b0 ++ [bk]
    if b.any (fun x => decide (x < 0)) then .error .noSolution
    else .ok (Question.mkN A b bk ak none)

/-- `SRG.append_and_return_new` (/repo/srg/srg.py:254-258), no assertions. -/
def appendRowN (m : Mat) (ans : Vec) : Res Mat := do
  let R := m.length
  let C := ncols m
  if C ≤ R then .error .index
  else .ok (m ++ [col m R ++ [0] ++ ans])

namespace Gauss

/-- `_gauss_elim` (/repo/srg/gauss_elim.py:14-42), no assertions. -/
def gaussStepN (hd : List Entry) : Res (Bool × List Entry) :=
  match ssort hd with
  | [] => .error .index
  | m :: rest =>
    let reducible := (rest.filter (isReducible m)).map (fun e => ⟨e.k - m.k, e.i, e.v - m.v⟩)
    let same := rest.filter (fun e => !isReducible m e)
    if reducible.isEmpty then
      .ok (false, hmerge [m] same)
    else
      .ok (true, hmerge (hmerge [m] (removeZeroKeys reducible)) same)

/-- The `while hd` loop of `_elim` (/repo/srg/gauss_elim.py:56-68), no assertions. -/
def elimLoopN : Nat → List Entry → List Entry → Res (List Entry)
  | _, hs, [] => .ok hs
  | 0, _, _ :: _ => .error .fuel
  | n + 1, hs, h :: t => do
    let (simplified, hd') ← gaussStepN (h :: t)
    if simplified then
      elimLoopN n [] (hmerge hs hd')
    else
      match ssort hd' with
      | [] => .error .index
      | m :: rest => elimLoopN n (hs ++ [m]) rest

/-- `_elim` (/repo/srg/gauss_elim.py:45-68), no assertions. -/
def elimListN (hd : List Entry) : Res (List Entry) :=
  let hd := removeZeroKeys hd
  if hd.length ≤ 1 then .ok hd
  else elimLoopN (elimFuel hd) [] (ssort hd)

/-- `_encode` (/repo/srg/gauss_elim.py:71-95), no assertions. -/
def encodeN (A : Mat) (b : Vec) : Res (List Entry) :=
  if ncols A = 0 then .error .index
  else .ok ((A.zip b).zipIdx.map (fun p => ⟨rowKey p.1.1, p.2, p.1.2⟩))

/-- `elim` (/repo/srg/gauss_elim.py:142-145), no assertions. -/
def elimN (A : Mat) (b : Vec) : Res (Mat × Vec) := do
  let hd ← encodeN A b
  let hd ← elimListN hd
  decode hd

end Gauss

/-- `raiseExceptionIfNotSolvableAfterwards` (/repo/srg/solver.py:29-52), no assertions. -/
def checkAfterN (Q : Question) : Res Question :=
  if ncols Q.A == 0 && Q.b.any (· != 0) then .error .noSolution
  else if Q.bounds.length > 0 && decide (Q.bounds.sum < Q.quota) then .error .noSolution
  else if (Q.ans.v.zip Q.ans.quotaN).any (fun p => decide (p.1 > p.2)) then .error .noSolution
  else .ok Q

/-- `reduce_col` without its decorator (/repo/srg/solver.py:58-77), no assertions. -/
def reduceColBodyN (Q : Question) : Res Question := do
  if ncols Q.A < 2 then .ok Q
  else do
    let enc ← Unique.encode Q.A
    let d := groups enc
    let keep := d.map (fun g => g.2.headD 0)
    let drop := (d.map (fun g => g.2.tail)).flatten
    let boundsNew := d.map (fun g => i8 ((g.2.map (fun j => Q.bounds.getD j 0)).sum))
    let ul := Q.ans.unknownLoc
    let dropAns ← drop.mapM (pyGet ul)
    let v' := npDelete dropAns Q.ans.v
    let loc' := npDelete dropAns Q.ans.loc
    let A' := Q.A.map (fun r => keep.map (fun j => r.getD j 0))
    .ok { Q with A := A', bounds := boundsNew, ans := ⟨v', loc', Q.ans.len⟩ }

/-- `reduce_col` (/repo/srg/solver.py:56-77), no assertions. -/
def reduceColN (Q : Question) : Res Question := do checkAfterN (← reduceColBodyN Q)

/-- `eliminate` without its decorator (/repo/srg/solver.py:82-86), no assertions. -/
def eliminateBodyN (Q : Question) : Res Question := do
  if ncols Q.A = 0 then .ok Q
  else do
    let (A, b) ← Gauss.elimN Q.A Q.b
    .ok { Q with A := A, b := b }

/-- `eliminate` (/repo/srg/solver.py:80-86), no assertions. -/
def eliminateN (Q : Question) : Res Question := do checkAfterN (← eliminateBodyN Q)

/-- `zero_in_b` without its decorator (/repo/srg/solver.py:91-108), no assertions. -/
def zeroInBBodyN (Q : Question) : Res Question := do
  let bounds := Bounds.lowerUpperBound Q.A Q.b Q.bounds
  let ul := Q.ans.unknownLoc
  let z := Bounds.zeroBoundLoc bounds
  let v ← assignAll ul Q.ans.v (z.map (fun j => (j, 0)))
  .ok { Q with A := Q.A.map (npDelete z), bounds := npDelete z bounds, ans := { Q.ans with v := v } }

/-- `zero_in_b` (/repo/srg/solver.py:89-108), no assertions. -/
def zeroInBN (Q : Question) : Res Question := do checkAfterN (← zeroInBBodyN Q)

/-- `only_1_element_in_row` without its decorator (/repo/srg/solver.py:114-155), no assertions. -/
def only1WithN (rcs : List (Nat × Nat)) (Q : Question) : Res Question := do
  let ul := Q.ans.unknownLoc
  if rcs.isEmpty then .ok Q
  else do
    let cs := rcs.map Prod.snd
    let subx := rcs.map (fun rc => Q.b.getD rc.1 0)
    let upd := Q.A.map (fun row => i8 (dot (cs.map (fun c => row.getD c 0)) subx))
    if rcs.any (fun rc => decide (Q.b.getD rc.1 0 > Q.bounds.getD rc.2 0)) then .error .noSolution
    else if subx.sum > Q.quota then .error .noSolution
    else if (upd.zip Q.b).any (fun p => decide (p.1 > p.2)) then .error .noSolution
    else do
      let v ← assignAll ul Q.ans.v (rcs.map (fun rc => (rc.2, Q.b.getD rc.1 0)))
      .ok { A := Q.A.map (npDelete cs), b := List.zipWith (fun x y => i8 (x - y)) Q.b upd,
            quota := Q.quota - subx.sum, bounds := npDelete cs Q.bounds,
            ans := { Q.ans with v := v } }

/-- `only_1_element_in_row` (/repo/srg/solver.py:112-155), no assertions. -/
def only1N (Q : Question) : Res Question := do
  checkAfterN (← only1WithN (Bounds.oneElementRowLocs Q.A) Q)

/-- `fork_enum` (/repo/srg/solver.py:159-183), no assertions. -/
def forkEnumN (Q : Question) : Res (List Question) := do
  let Q ← checkAfterN Q
  let ul := Q.ans.unknownLoc
  let minloc ← npArgmin Q.bounds
  let newBound := npDelete [minloc] Q.bounds
  let (acol, newA) := Fork.popCol Q.A minloc
  let qs ← Fork.enum Q.quota Q.bounds minloc
  let outs ← qs.mapM (fun qr => do
    let newB := List.zipWith (fun b a => i8 (b - a * qr.1)) Q.b acol
    if newB.any (fun x => decide (x < 0)) then .ok none
    else do
      let p ← pyGet ul minloc
      let ans := { Q.ans with v := Q.ans.v.set p qr.1 }
      .ok (some (Question.mkN newA newB qr.2 newBound (some ans))))
  .ok (outs.filterMap id)

/-- One pass of the inner `while True` body (/repo/srg/solver.py:199-202), no assertions. -/
def reducePassN (Q : Question) : Res Question := do
  let Q ← reduceColN Q
  let Q ← eliminateN Q
  let Q ← zeroInBN Q
  only1N Q

/-- The inner `while True` loop (/repo/srg/solver.py:197-204), no assertions. -/
def reduceLoopN : Nat → Question → Res Question
  | 0, _ => .error .fuel
  | n + 1, Q => do
    let Q' ← reducePassN Q
    if Q' = Q then .ok Q' else reduceLoopN n Q'

/-- One popped question (/repo/srg/solver.py:196-214), no assertions. -/
def visitN (Q : Question) : Res (List Vec × List Question) :=
  match (do
    let Q ← reduceLoopN (reduceFuel Q) Q
    if Q.ans.unknown then do
      let qs ← forkEnumN Q
      .ok ([], qs)
    else .ok ([Q.ans.binarizeN], [])) with
  | .error .noSolution => .ok ([], [])
  | r => r

/-- The search over the fork tree (/repo/srg/solver.py:189-214), no assertions. -/
def solveTreeN : Nat → Question → Res (List Vec)
  | 0, _ => .error .fuel
  | n + 1, Q => do
    let (outs, qs) ← visitN Q
    let rest ← qs.reverse.mapM (solveTreeN n)
    .ok (outs ++ rest.flatten)

/-- `solve_question` (/repo/srg/solver.py:189-214), no assertions. -/
def solveQuestionN (Q : Question) : Res (List Vec) := solveTreeN (ncols Q.A + 1) Q

/-- `advance` (/repo/srg/solver.py:222-229), no assertions. -/
def advanceN (m : Mat) : Res (List Mat) :=
  match fromMatrixN m with
  | .error .noSolution => .ok []
  | .error e => .error e
  | .ok q => do
    let rows ← solveQuestionN q
    rows.mapM (appendRowN m)

/-- The `while lst` loop of `solve` (/repo/srg/solver.py:236-239), no assertions. -/
def solveLevelsN : Nat → List Mat → Res (List Mat)
  | _, [] => .ok []
  | 0, _ :: _ => .error .fuel
  | n + 1, lst => do
    let done := lst.filter solved
    let undone := lst.filter (fun m => !solved m)
    let next ← undone.mapM advanceN
    let rest ← solveLevelsN n next.flatten
    .ok (done ++ rest)

/-- `solve` (/repo/srg/solver.py:231-239), no assertions. -/
def solveN (m : Mat) : Res (List Mat) := do
  let lst ← advanceN m
  solveLevelsN (ncols m + 1) lst

/-- `python -O -m srg` (/repo/srg/__main__.py:12-25).  `assert_srg` consists of an assertion
(/repo/srg/utils.py:31-32), so it does nothing. -/
def mainN (argv : List Str) : Res (List Mat) := do
  match ← argv.mapM parseInt with
  | [v, k, l, u] => do
    let s ← seed v k l u
    let ans ← solveN s
    Sorter.sort ans
  | _ => .error .valueErr

/-- `partition.enum` (/repo/srg/partition.py:4-22), no assertions: unpacking no bounds is a
`ValueError`. -/
def Partition.enumN : Int → Vec → Res (List Vec)
  | _, [] => .error .valueErr
  | s, [bound] => .ok (if s ≤ bound then [[s]] else [])
  | s, bound :: b2 :: others => do
    let parts ← (Fork.pyRange 0 (min bound s + 1)).mapM (fun v => do
      let ts ← Partition.enumN (s - v) (b2 :: others)
      .ok (ts.map (fun t => v :: t)))
    .ok parts.flatten

namespace Sorter

/-- `AdjMat._sort` (/repo/srg/sorter.py:53-79), no assertions. -/
def sortRowN (argsort : Vec → List Nat) (M : Mat) (row c0 : Nat) (c1 : Option Nat) :
    Res (Mat × Option Nat) :=
  if row ≥ c0 then .ok (M, none)
  else match c1 with
    | none => .error .typeErr
    | some c1 =>
      if c0 ≥ c1 then .ok (M, none)
      else
        let a := slice M row c0 c1
        let i := argsort (a.map (fun x => -x))
        let S := permute M (window M.length c0 c1 i)
        let zeros := npWhere (fun x => x == 0) (slice S row c0 c1)
        .ok (S, zeros.head?.map (· + c0))

/-- `AdjMat._div_sort` (/repo/srg/sorter.py:29-52), no assertions. -/
def divSortN (argsort : Vec → List Nat) (M : Mat) (si : Instr) : Res (Mat × List Instr) := do
  let c0' := if si.row + 1 = si.c0 then si.c0 + 1 else si.c0
  let (M, di1) ← sortRowN argsort M (si.row + 1) c0' si.di
  match si.di with
  | none => .error .typeErr
  | some di => do
    let (M, di2) ← sortRowN argsort M (si.row + 1) di (some si.c1)
    let out1 := match di1 with
      | some d => if d ≠ 0 then [⟨si.row + 1, c0', di, some d⟩] else []
      | none => []
    let out2 := match di2 with
      | some d => if d ≠ 0 then [⟨si.row + 1, di, si.c1, some d⟩] else []
      | none => []
    .ok (M, out1 ++ out2)

/-- The queue loop of `AdjMat.sort` (/repo/srg/sorter.py:20-27), no assertions. -/
def sortLoopN (argsort : Vec → List Nat) : Nat → Mat → List Instr → Res Mat
  | _, M, [] => .ok M
  | 0, _, _ :: _ => .error .fuel
  | n + 1, M, si :: q => do
    let (M, sii) ← divSortN argsort M si
    sortLoopN argsort n M (q ++ sii)

/-- `maximize` (/repo/srg/sorter.py:82-88), no assertions. -/
def maximizeN (argsort : Vec → List Nat) (A : Mat) : Res Mat := do
  let v := A.length
  let (M, d) ← sortRowN argsort A 0 1 (some v)
  sortLoopN argsort (2 ^ (v + 1)) M [⟨0, 1, v, d⟩]

/-- `swap_and_verify` (/repo/srg/sorter.py:114-118), no assertions. -/
def swapAndVerifyN (M : Mat) (i j : Nat) : Res Mat := swap M i j

end Sorter

end TDS
