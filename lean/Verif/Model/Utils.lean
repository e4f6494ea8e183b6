import Verif.Model.Srg

/-! `srg/utils.py`: parameter arithmetic and the complement. -/

namespace TDS

namespace Utils

/-- `conference` (/repo/srg/utils.py:21-22). -/
def conference (v k l u : Int) : Int := 2 * k + (v - 1) * (l - u)

/-- `assert_srg` (/repo/srg/utils.py:31-32). -/
def assertSrg (v k l u : Int) : Res Unit := pyAssert ((v - k - 1) * u == k * (k - l - 1))

/-- `complement_vklu` (/repo/srg/utils.py:34-35). -/
def complementVklu (v k l u : Int) : Int × Int × Int × Int :=
  (v, v - k - 1, v - 2 - 2 * k + u, v - 2 * k + l)

/-- `_invert` (/repo/srg/utils.py:37-38), elementwise. -/
def invert (mat : Mat) : Mat := mat.map (fun r => r.map (fun t => if t ≠ 0 then 0 else 1))

/-- Entry `(i, j)` of `srg.identity` (/repo/srg/srg.py:10). -/
def delta (i j : Nat) : Int := if i = j then 1 else 0

/-- `complement` (/repo/srg/utils.py:40-43) on a square array: `_invert(mat) - I`.  `np.vectorize`
refuses empty input (`ValueError`).  Subtracting arrays of different shapes is a `ValueError`; the
two broadcasting exceptions (one row, or one column) are modelled as numpy defines them.
`_invert` returns int64, so nothing wraps. -/
def complement (mat : Mat) : Res Mat :=
  let R := mat.length
  let C := ncols mat
  let N := invert mat
  if R = 0 ∨ C = 0 then .error .valueErr
  else if R = C ∨ R = 1 then
    .ok ((List.range R).map (fun i => (List.range C).map (fun j =>
      (N.getD i []).getD j 0 - delta i (if R = 1 then 0 else j))))
  else if C = 1 then
    .ok ((List.range R).map (fun i => (List.range R).map (fun j =>
      (N.getD i []).getD 0 0 - delta i j)))
  else .error .valueErr

end Utils

end TDS
