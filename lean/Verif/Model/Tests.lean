import Verif.Model.Check
import Verif.Model.Sorter
import Verif.Model.Utils

/-! The checks of /repo/tests, as functions of the list of matrices they are given. -/

namespace TDS

namespace Tests

/-- `A @ B` for 2-d arrays of default integers; different inner sizes are a `ValueError`.  The
stored matrices are int64 arrays (/repo/srg/database, `from numpy import array`), so nothing
wraps (/repo/tests/test_database.py:45, 75, 82). -/
def matMul (A B : Mat) : Res Mat :=
  if ncols A = B.length then
    .ok (A.map (fun r => (List.range (ncols B)).map (fun j => dot r (col B j))))
  else .error .valueErr

/-- `(k - u) * I + u * J` (/repo/tests/test_database.py:71-73), where `I` and `J` are int8 arrays. -/
def constMat (v : Nat) (k u : Int) : Mat :=
  (List.range v).map (fun i => (List.range v).map (fun j =>
    i8 (i8 ((k - u) * Utils.delta i j) + i8 u)))

/-- `np.array_equal(mat @ mat - (l - u) * mat, const)` (/repo/tests/test_database.py:75). -/
def identityCheck (v : Nat) (k l u : Int) (mat : Mat) : Res Unit := do
  let sq ← matMul mat mat
  pyAssert (arrayEq2 (List.zipWith (List.zipWith (fun x y => x - (l - u) * y)) sq mat)
    (constMat v k u))

/-- `test_srg_matrix_identity` (/repo/tests/test_database.py:69-82). -/
def testIdentity (v : Nat) (k l u : Int) (db : List Mat) : Res Unit := do
  db.forM (identityCheck v k l u)
  let p := Utils.complementVklu v k l u
  db.forM (fun m => do identityCheck v p.2.1 p.2.2.1 p.2.2.2 (← Utils.complement m))

/-- The assertion of `test_matrix_property` for row `ri` (/repo/tests/test_database.py:41-45):
`m_left @ pivot + m_right @ solution` against `l` and `u`. -/
def propertyRow (l u : Int) (mat : Mat) (ri : Nat) : Res Unit :=
  let mr := mat.take ri
  let pivot := col mr ri
  let solution := (mat.getD ri []).drop (ri + 1)
  pyAssert (arrayEq1 (mr.map (fun r => dot (r.take ri) pivot + dot (r.drop (ri + 1)) solution))
    (pivot.map (fun e => if e ≠ 0 then l else u)))

/-- `test_matrix_property` (/repo/tests/test_database.py:20-45): rows `1, …, v - 2`. -/
def testProperty (v : Nat) (l u : Int) (db : List Mat) : Res Unit :=
  db.forM (fun mat => (List.range' 1 (v - 2)).forM (propertyRow l u mat))

/-- `test_solve` (/repo/tests/test_solver.py:19-26) with the search as a parameter.  `zip` stops at
the end of the shorter list. -/
def testSolve (search : Mat → Res (List Mat)) (v k l u : Int) (db : List Mat) : Res Unit := do
  let s ← seed v k l u
  let actuals ← search s
  let sorted ← Sorter.sort actuals
  (sorted.zip db).forM (fun p => pyAssert (arrayEq2 p.1 p.2))

/-- `test_solve_question` (/repo/tests/test_solver.py:29-41): some row found for the third row of
the matrix is the third row of a stored one. -/
def testQuestion (v k l u : Int) (db : List Mat) : Res Unit := do
  let expected := db.map (fun m => (m.getD 2 []).drop 3)
  let s ← seed v k l u
  let q ← fromMatrix s
  let actuals ← solveQuestion q
  pyAssert (actuals.any (fun a => expected.any (fun e => arrayEq1 e a)))

end Tests

end TDS
