import Verif.Model.Utils
import Mathlib.Analysis.SpecialFunctions.Sqrt

/-! `eig` and `determinant` of `srg/utils.py`.

Simplification: floating-point numbers are exact real numbers, so rounding errors are outside the
model (DESIGN.md).  The two floating-point special values that can occur are turned into the
exceptions they lead to: the square root of a negative number is nan, and so is `0 / 0.0`; in both
cases the `int(...)` applied later raises `ValueError`. -/

namespace TDS

namespace Utils

/-- `int(x)` of a finite float: rounding towards zero (/repo/srg/utils.py:13, 16, 17). -/
noncomputable def toInt (x : ℝ) : Int := if 0 ≤ x then ⌊x⌋ else ⌈x⌉

/-- `round(x)` of a finite float: to the nearest integer, ties to the even one (/repo/srg/utils.py:29). -/
noncomputable def pyRound (x : ℝ) : Int :=
  if x - ⌊x⌋ < 1 / 2 then ⌊x⌋
  else if 1 / 2 < x - ⌊x⌋ then ⌊x⌋ + 1
  else if ⌊x⌋ % 2 = 0 then ⌊x⌋ else ⌊x⌋ + 1

/-- `eig` (/repo/srg/utils.py:9-19).  With `conf != 0` the divisor `D` is a Python integer, so a
zero raises `ZeroDivisionError`; with `conf == 0` it is a numpy float. -/
noncomputable def eig (v k l u : Int) : Res (List (ℝ × Int)) :=
  let conf := conference v k l u
  let disc : Int := (l - u) ^ 2 + 4 * (k - u)
  if disc < 0 then .error .valueErr
  else
    let D : ℝ := if conf ≠ 0 then (toInt (√disc) : ℝ) else √disc
    if D = 0 then .error (if conf ≠ 0 then .zeroDiv else .valueErr)
    else
      let e : List ℝ := [(k : ℝ), ((l - u : ℝ) + D) / 2, ((l - u : ℝ) - D) / 2]
      let e := e.map (fun x => if conf ≠ 0 then (toInt x : ℝ) else x)
      let mul : List Int :=
        [1, toInt (((v - 1 : ℝ) - conf / D) / 2), toInt (((v - 1 : ℝ) + conf / D) / 2)]
      .ok (e.zip mul)

/-- The loop of `determinant` (/repo/srg/utils.py:25-27): `prod *= e ** m`; zero to a negative
power raises `ZeroDivisionError`.  (With `conf == 0` the zero is a numpy float, its power is infinite
and `round` raises `OverflowError`; it is represented by the same error.) -/
noncomputable def prodLoop : List (ℝ × Int) → ℝ → Res ℝ
  | [], prod => .ok prod
  | (e, m) :: rest, prod => if e = 0 ∧ m < 0 then .error .zeroDiv else prodLoop rest (prod * e ^ m)

/-- `determinant` (/repo/srg/utils.py:24-29). -/
noncomputable def determinant (v k l u : Int) : Res Int :=
  (eig v k l u).bind fun L => (prodLoop L 1).bind fun prod => .ok (pyRound prod)

end Utils

end TDS
