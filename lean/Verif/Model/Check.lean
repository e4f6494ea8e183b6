import Verif.Model.Solver

/-! Comparison of questions (/repo/srg/srg.py:51-55, 197-204), `_invariant_check`
(/repo/srg/srg.py:234-244) and the decorator `utils.debug` (/repo/srg/utils.py:46-74). -/

namespace TDS

/-- `np.array_equal` on 1-d arrays (/repo/srg/srg.py:52-53, 198, 201). -/
def arrayEq1 (a b : Vec) : Bool := a.length == b.length && (a.zip b).all (fun p => p.1 == p.2)

/-- `np.array_equal` on 2-d arrays: same shape, same entries
(/repo/srg/srg.py:197-198; /repo/srg/sorter.py:69, 117). -/
def arrayEq2 (A B : Mat) : Bool :=
  A.length == B.length && ncols A == ncols B &&
    (A.zip B).all (fun p => (p.1.zip p.2).all (fun q => q.1 == q.2))

/-- `Answer.__eq__` (/repo/srg/srg.py:51-55). -/
def Answer.pyEq (a b : Answer) : Bool :=
  if !arrayEq1 a.v b.v then false
  else if !arrayEq1 a.loc b.loc then false
  else if a.len != b.len then false
  else true

/-- `Question.__eq__` (/repo/srg/srg.py:197-204); `!=` on answers is the negation of `__eq__`. -/
def Question.pyEq (Q R : Question) : Bool :=
  if !arrayEq2 Q.A R.A then false
  else if !arrayEq1 Q.b R.b then false
  else if Q.quota != R.quota then false
  else if !arrayEq1 Q.bounds R.bounds then false
  else if !Q.ans.pyEq R.ans then false
  else true

/-- `Question._invariant_check` (/repo/srg/srg.py:234-244).  `_v` and `quota` have the same length
in every `Answer` whose `quota` does not raise. -/
def Question.invariantCheck (Q : Question) : Res Unit := do
  pyAssert (Q.b.all (fun x => decide (x ≥ 0)))
  pyAssert (Q.bounds.all (fun x => decide (x ≥ 0)))
  pyAssert (Q.A.length == Q.b.length)
  pyAssert (ncols Q.A == Q.bounds.length)
  pyAssert (Q.ans.unknownLoc.length == ncols Q.A)
  let q ← Q.ans.quota
  pyAssert ((Q.ans.v.zip q).all (fun p => decide (p.1 ≤ p.2)))
  if ncols Q.A == 0 then pyAssert (Q.b.all (fun x => x == 0)) else .ok ()

/-- `utils.debug(func)` (/repo/srg/utils.py:46-74) for a step that updates its argument in place:
copy, run, check.  The copy runs the constructors' assertions.  Printing is left out. -/
def debugStep (f : Question → Res Question) (Q : Question) : Res Question := do
  let a ← Answer.mk' Q.ans.v Q.ans.loc Q.ans.len
  let _ ← Question.mk' Q.A Q.b Q.quota Q.bounds (some a)
  let Q' ← f Q
  Q'.invariantCheck
  .ok Q'

/-- `utils.debug(fork_enum)`: calling the decorated generator function runs its checks, and then the
question itself is checked (/repo/srg/utils.py:46-74 and /repo/srg/solver.py:158-183). -/
def debugFork (Q : Question) : Res (List Question) := do
  let a ← Answer.mk' Q.ans.v Q.ans.loc Q.ans.len
  let _ ← Question.mk' Q.A Q.b Q.quota Q.bounds (some a)
  let _ ← checkAfter Q
  Q.invariantCheck
  forkEnum Q

/-- One pass with every step decorated (the commented `#@debug` lines of /repo/srg/solver.py). -/
def debugPass (Q : Question) : Res Question := do
  let Q ← debugStep reduceCol Q
  let Q ← debugStep eliminate Q
  let Q ← debugStep zeroInB Q
  debugStep only1 Q

/-- The inner loop with every step decorated and with `==` as the program computes it
(/repo/srg/solver.py:197-204 and /repo/srg/utils.py:46-74). -/
def debugLoop : Nat → Question → Res Question
  | 0, _ => .error .fuel
  | n + 1, Q => do
    let Q' ← debugPass Q
    if Q'.pyEq Q then .ok Q' else debugLoop n Q'

/-- `visit` with every step decorated (/repo/srg/solver.py:194-214 and /repo/srg/utils.py:46-74). -/
def debugVisit (Q : Question) : Res (List Vec × List Question) :=
  match (do
    let Q ← debugLoop (reduceFuel Q) Q
    if Q.ans.unknown then do
      let qs ← debugFork Q
      .ok ([], qs)
    else do
      let a ← Q.ans.binarize
      .ok ([a], [])) with
  | .error .noSolution => .ok ([], [])
  | r => r

end TDS
