import Verif.Model.Solver

/-! `solve` as a generator: what it does in which order.

`solve` (/repo/srg/solver.py:231-239) is a generator function, so the matrices it yields and the
calls of `advance` it makes form one sequence of events, possibly cut off by an exception. -/

namespace TDS

/-- What an observer of the generator sees: a call of `advance`, or a yielded matrix (/repo/srg/solver.py:231-239). -/
inductive Event where
  | call (m : Mat)
  | out (m : Mat)
  deriving DecidableEq, Repr

/-- `map(advance, lst_undone)` consumed by `reduce` (/repo/srg/solver.py:235, 239): the calls made,
and their results or the exception that ended them. -/
def callAll : List Mat → List Event × Res (List (List Mat))
  | [] => ([], .ok [])
  | m :: t =>
    match advance m with
    | .error e => ([.call m], .error e)
    | .ok l => (.call m :: (callAll t).1, (callAll t).2.map (fun ls => l :: ls))

/-- The `while lst` loop (/repo/srg/solver.py:236-239) with a step budget. -/
def levelsTrace : Nat → List Mat → List Event × Res Unit
  | _, [] => ([], .ok ())
  | 0, _ :: _ => ([], .error .fuel)
  | n + 1, lst =>
    let ys := (lst.filter solved).map Event.out
    match callAll (lst.filter (fun m => !solved m)) with
    | (evs, .error e) => (ys ++ evs, .error e)
    | (evs, .ok next) =>
      (ys ++ evs ++ (levelsTrace n next.flatten).1, (levelsTrace n next.flatten).2)

/-- The events of running `solve` (/repo/srg/solver.py:231-239) to its end, and the exception, if
any.  The lines before the loop are one round of the loop. -/
def solveTrace (m : Mat) : List Event × Res Unit :=
  match advance m with
  | .error e => ([.call m], .error e)
  | .ok lst =>
    (.call m :: (levelsTrace (ncols m + 1) lst).1, (levelsTrace (ncols m + 1) lst).2)

end TDS
