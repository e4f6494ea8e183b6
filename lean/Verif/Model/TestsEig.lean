import Verif.Model.Eig

/-! `test_determinant` of /repo/tests/test_database.py, with exact real numbers instead of
floating-point numbers, as in `Verif.Model.Eig`. -/

namespace TDS

namespace Tests

/-- `test_determinant` (/repo/tests/test_database.py:48-66); `eigvals` is `np.linalg.eig(mat)[0]`.
`np.prod` of a tuple of Python integers is computed in `int64`. -/
noncomputable def testDeterminant (eigvals : Mat → List ℝ) (v k l u : Int) (db : List Mat) :
    Res Unit := do
  let expected ← Utils.determinant v k l u
  db.forM (fun mat =>
    let det : Int :=
      if Utils.conference v k l u ≠ 0 then i64 ((eigvals mat).map Utils.pyRound).prod
      else Utils.pyRound (eigvals mat).prod
    if det = expected then .ok () else .error .assertion)

end Tests

end TDS
