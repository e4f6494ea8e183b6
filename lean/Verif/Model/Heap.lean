import Verif.Model.Solver

/-! `solve_question` with mutable arrays.

`Verif.Model.Solver` treats a `Question` as a value.  The Python code keeps arrays in memory, writes
some of them in place and copies others.  Here arrays live in a heap and a `Question` holds
addresses, so that sharing is visible.

Simplifications: the `Question` and `Answer` objects themselves are values (the code never
stores one `Answer` in two questions, and never assigns an attribute of an `Answer`); two-dimensional
arrays are never written in place by this code, so the model has no such operation; an operation that
numpy defines to return a new array is a pure computation followed by an allocation. -/

namespace TDS

namespace Mem

/-- Memory: one-dimensional and two-dimensional arrays by address (/repo/srg/srg.py:25-27, 105-107). -/
structure Heap where
  vecs : List Vec
  mats : List Mat

/-- Contents of a one-dimensional array (/repo/srg/srg.py:25-26, 105). -/
def Heap.vec (h : Heap) (a : Nat) : Vec := h.vecs.getD a []

/-- Contents of a two-dimensional array (/repo/srg/srg.py:105). -/
def Heap.mat (h : Heap) (a : Nat) : Mat := h.mats.getD a []

/-- A computation that reads and writes memory.  Writes made before an exception stay (/repo/srg/solver.py:58-183). -/
def HM (α : Type) : Type := Heap → Res α × Heap

instance : Monad HM where
  pure a := fun h => (.ok a, h)
  bind m f := fun h => match m h with
    | (.ok a, h') => f a h'
    | (.error e, h') => (.error e, h')

/-- A computation that does not touch memory (/repo/srg/solver.py:58-183). -/
def liftR {α : Type} (r : Res α) : HM α := fun h => (r, h)

/-- Read a one-dimensional array (/repo/srg/solver.py:58-183). -/
def getV (a : Nat) : HM Vec := fun h => (.ok (h.vec a), h)

/-- Read a two-dimensional array (/repo/srg/solver.py:58-183). -/
def getM (a : Nat) : HM Mat := fun h => (.ok (h.mat a), h)

/-- A new one-dimensional array (/repo/srg/solver.py:72-76, 106, 155, 171, 179). -/
def newV (x : Vec) : HM Nat := fun h => (.ok h.vecs.length, { h with vecs := h.vecs ++ [x] })

/-- A new two-dimensional array (/repo/srg/solver.py:75, 86, 107, 154, 172, 183). -/
def newM (x : Mat) : HM Nat := fun h => (.ok h.mats.length, { h with mats := h.mats ++ [x] })

/-- Overwrite a one-dimensional array in place (/repo/srg/bounds.py:17; /repo/srg/solver.py:153). -/
def putV (a : Nat) (x : Vec) : HM Unit := fun h => (.ok (), { h with vecs := h.vecs.set a x })

/-- `arr[i] = x` (/repo/srg/bounds.py:17; /repo/srg/solver.py:105, 149, 181). -/
def setAt (a i : Nat) (x : Int) : HM Unit := do
  let y ← getV a
  if i < y.length then putV a (y.set i x) else liftR (.error .index)

/-- A `Question` (/repo/srg/srg.py:95-107) and its `Answer` (/repo/srg/srg.py:14-27), arrays by
address. -/
structure QRef where
  A : Nat
  b : Nat
  bounds : Nat
  v : Nat
  loc : Nat
  quota : Int
  len : Int
  deriving DecidableEq

/-- The question a reference stands for (/repo/srg/srg.py:95-107). -/
def deref (h : Heap) (q : QRef) : Question :=
  { A := h.mat q.A, b := h.vec q.b, quota := q.quota, bounds := h.vec q.bounds,
    ans := { v := h.vec q.v, loc := h.vec q.loc, len := q.len } }

/-- Read all of a question (/repo/srg/solver.py:198). -/
def readQ (q : QRef) : HM Question := fun h => (.ok (deref h q), h)

/-- `Question.copy` (/repo/srg/srg.py:194-195) and `Answer.copy` (/repo/srg/srg.py:48-49), with the
assertions of the two constructors. -/
def copyH (q : QRef) : HM QRef := do
  let A ← newM (← getM q.A)
  let b ← newV (← getV q.b)
  let bounds ← newV (← getV q.bounds)
  let v ← newV (← getV q.v)
  let loc ← newV (← getV q.loc)
  let ans ← liftR (Answer.mk' (← getV v) (← getV loc) q.len)
  let _ ← liftR (Question.mk' (← getM A) (← getV b) q.quota (← getV bounds) (some ans))
  pure { q with A := A, b := b, bounds := bounds, v := v, loc := loc }

/-- The checks of the decorator (/repo/srg/solver.py:29-52); they write nothing. -/
def checkAfterH (q : QRef) : HM QRef := do
  let Q ← readQ q
  let _ ← liftR (checkAfter Q)
  pure q

/-- `reduce_col` (/repo/srg/solver.py:56-77): all four new arrays are freshly built
(`Q.A[:, …]` with a tuple index, `srg.array`, `np.delete`). -/
def reduceColH (q : QRef) : HM QRef := do
  let Q ← readQ q
  if ncols Q.A < 2 then checkAfterH q
  else do
    let Q' ← liftR (reduceColBody Q)
    let v ← newV Q'.ans.v
    let loc ← newV Q'.ans.loc
    let A ← newM Q'.A
    let bounds ← newV Q'.bounds
    checkAfterH { q with A := A, bounds := bounds, v := v, loc := loc }

/-- `eliminate` (/repo/srg/solver.py:80-86): `gauss_elim.elim` only reads its arguments. -/
def eliminateH (q : QRef) : HM QRef := do
  let Q ← readQ q
  if ncols Q.A = 0 then checkAfterH q
  else do
    let Q' ← liftR (eliminateBody Q)
    let A ← newM Q'.A
    let b ← newV Q'.b
    checkAfterH { q with A := A, b := b }

/-- Inner loop of `lower_upper_bound` (/repo/srg/bounds.py:16-17), writing in place. -/
def lubRowH (bounds : Nat) (u : Int) : List Nat → HM Unit
  | [] => pure ()
  | loc :: t => do
    let bd ← getV bounds
    let x ← liftR (pyGet bd loc)
    setAt bounds loc (min x u)
    lubRowH bounds u t

/-- Outer loop of `lower_upper_bound` (/repo/srg/bounds.py:9-17) over the given rows; row and
right-hand side are read when their turn comes. -/
def lubH (A b bounds : Nat) : List Nat → HM Unit
  | [] => pure ()
  | i :: t => do
    let M ← getM A
    let bv ← getV b
    lubRowH bounds (bv.getD i 0) (npWhere (fun x => x != 0) (M.getD i []))
    lubH A b bounds t

/-- `for zbl in zbls: ans._v[val_unknown_locs[zbl]] = 0` (/repo/srg/solver.py:103-105). -/
def zeroLoopH (v : Nat) (ul : List Nat) : List Nat → HM Unit
  | [] => pure ()
  | z :: t => do
    let p ← liftR (pyGet ul z)
    setAt v p 0
    zeroLoopH v ul t

/-- `zero_in_b` (/repo/srg/solver.py:89-108): writes the bounds and the answer in place. -/
def zeroInBH (q : QRef) : HM QRef := do
  let M ← getM q.A
  let bv ← getV q.b
  lubH q.A q.b q.bounds (List.range (min M.length bv.length))
  let Q ← readQ q
  let ul := Q.ans.unknownLoc
  liftR (pyAssert (ul.length == Q.bounds.length))
  let z := Bounds.zeroBoundLoc Q.bounds
  zeroLoopH q.v ul z
  let bd ← getV q.bounds
  let bounds ← newV (npDelete z bd)
  let M ← getM q.A
  let A ← newM (M.map (npDelete z))
  let bd' ← getV bounds
  liftR (pyAssert (bd'.all (fun x => decide (x ≥ 0))))
  checkAfterH { q with A := A, bounds := bounds }

/-- The assignment loop of `only_1_element_in_row` (/repo/srg/solver.py:147-150): the answer is
written in place, the setter of `quota` asserts after every subtraction. -/
def only1LoopH (v b : Nat) (ul : List Nat) : List (Nat × Nat) → Int → HM Int
  | [], quota => pure quota
  | (r, c) :: t, quota => do
    let p ← liftR (pyGet ul c)
    let x := (← getV b).getD r 0
    setAt v p x
    let y := (← getV b).getD r 0
    liftR (pyAssert (decide (quota - y ≥ 0)))
    only1LoopH v b ul t (quota - y)

/-- `only_1_element_in_row` (/repo/srg/solver.py:112-155); `Q.b -= b_to_update` writes in place. -/
def only1H (q : QRef) : HM QRef := do
  let Q ← readQ q
  let rcs := Bounds.oneElementRowLocs Q.A
  let ul := Q.ans.unknownLoc
  liftR (pyAssert (ul.length == Q.bounds.length))
  if rcs.isEmpty then checkAfterH q
  else do
    let cs := rcs.map Prod.snd
    let subx := rcs.map (fun rc => Q.b.getD rc.1 0)
    let upd := Q.A.map (fun row => i8 (dot (cs.map (fun c => row.getD c 0)) subx))
    if rcs.any (fun rc => decide (Q.b.getD rc.1 0 > Q.bounds.getD rc.2 0)) then
      liftR (.error .noSolution)
    else if subx.sum > Q.quota then liftR (.error .noSolution)
    else if (upd.zip Q.b).any (fun p => decide (p.1 > p.2)) then liftR (.error .noSolution)
    else do
      let quota ← only1LoopH q.v q.b ul rcs q.quota
      let bv ← getV q.b
      putV q.b (List.zipWith (fun x y => i8 (x - y)) bv upd)
      let bv' ← getV q.b
      liftR (pyAssert (bv'.all (fun x => decide (x ≥ 0))))
      let M ← getM q.A
      let A ← newM (M.map (npDelete cs))
      let bd ← getV q.bounds
      let bounds ← newV (npDelete cs bd)
      let bd' ← getV bounds
      liftR (pyAssert (bd'.all (fun x => decide (x ≥ 0))))
      checkAfterH { q with A := A, bounds := bounds, quota := quota }

/-- The loop of `fork_enum` (/repo/srg/solver.py:173-183): one child per value. -/
def forkLoopH (q : QRef) (ul : List Nat) (minloc : Nat) (acol : Vec) (newA newBound : Nat) :
    List (Int × Int) → HM (List QRef)
  | [] => pure []
  | (used, rest) :: t => do
    let bv ← getV q.b
    let b ← newV (List.zipWith (fun b a => i8 (b - a * used)) bv acol)
    let nb ← getV b
    if nb.any (fun x => decide (x < 0)) then forkLoopH q ul minloc acol newA newBound t
    else do
      let v ← newV (← getV q.v)
      let loc ← newV (← getV q.loc)
      let _ ← liftR (Answer.mk' (← getV v) (← getV loc) q.len)
      let p ← liftR (pyGet ul minloc)
      setAt v p used
      let A ← newM (← getM newA)
      let bounds ← newV (← getV newBound)
      let ans : Answer := { v := ← getV v, loc := ← getV loc, len := q.len }
      let _ ← liftR (Question.mk' (← getM A) (← getV b) rest (← getV bounds) (some ans))
      let more ← forkLoopH q ul minloc acol newA newBound t
      pure ({ A := A, b := b, bounds := bounds, v := v, loc := loc, quota := rest,
              len := q.len } :: more)

/-- `fork_enum` (/repo/srg/solver.py:159-183). -/
def forkEnumH (q : QRef) : HM (List QRef) := do
  let _ ← checkAfterH q
  let Q ← readQ q
  let ul := Q.ans.unknownLoc
  liftR (pyAssert (decide (ul.length > 0)))
  let minloc ← liftR (npArgmin Q.bounds)
  let newBound ← newV (npDelete [minloc] Q.bounds)
  let newA ← newM (Fork.popCol Q.A minloc).2
  let qs ← liftR (Fork.enum Q.quota Q.bounds minloc)
  forkLoopH q ul minloc (Fork.popCol Q.A minloc).1 newA newBound qs

/-- One pass (/repo/srg/solver.py:199-202). -/
def passH (q : QRef) : HM QRef := do
  let q ← reduceColH q
  let q ← eliminateH q
  let q ← zeroInBH q
  only1H q

/-- The inner loop (/repo/srg/solver.py:197-204) with the snapshot it compares against. -/
def loopH : Nat → QRef → HM QRef
  | 0, _ => liftR (.error .fuel)
  | n + 1, q => do
    let d ← copyH q
    let q' ← passH q
    let Q' ← readQ q'
    let D ← readQ d
    if Q' = D then pure q' else loopH n q'

/-- `try … except NoSolution: continue` around the treatment of one question
(/repo/srg/solver.py:196-214). -/
def visitH (q : QRef) : HM (List Vec × List QRef) := fun h =>
  match (do
    let Q ← readQ q
    let q ← loopH (reduceFuel Q) q
    let Q ← readQ q
    if Q.ans.unknown then do
      let qs ← forkEnumH q
      pure ([], qs)
    else do
      let a ← liftR Q.ans.binarize
      pure ([a], []) : HM (List Vec × List QRef)) h with
  | (.error .noSolution, h') => (.ok ([], []), h')
  | r => r

/-- The outer loop (/repo/srg/solver.py:193-214); the head of the list is the top of the stack. -/
def solveLoopH : Nat → List QRef → HM (List Vec)
  | _, [] => pure []
  | 0, _ :: _ => liftR (.error .fuel)
  | n + 1, q :: stack => do
    let (outs, qs) ← visitH q
    let rest ← solveLoopH n (qs.reverse ++ stack)
    pure (outs ++ rest)

/-- The question built by `from_matrix` in memory; its five arrays are new (/repo/srg/srg.py:144-171). -/
def placeH (Q : Question) : HM QRef := do
  let A ← newM Q.A
  let b ← newV Q.b
  let bounds ← newV Q.bounds
  let v ← newV Q.ans.v
  let loc ← newV Q.ans.loc
  pure { A := A, b := b, bounds := bounds, v := v, loc := loc, quota := Q.quota, len := Q.ans.len }

/-- `solve_question` (/repo/srg/solver.py:189-214) on a question whose arrays are new, with a step
budget. -/
def solveQuestionH (n : Nat) (Q : Question) : HM (List Vec) := do
  let q ← placeH Q
  solveLoopH n [q]

end Mem

end TDS
