import Verif.Model.Eig

/-! `eig` and `determinant` of `srg/utils.py`, and `test_determinant` of `tests/test_database.py`, in
floating-point arithmetic.

The arithmetic is a parameter: how a real number is rounded, and what `pow` returns.  Conversions of
integers, `+`, `-`, `*`, `/` and `np.sqrt` round the exact result, as IEEE 754 requires (and Python's
`/` on integers); `pow` comes from the C library and is not required to.  Simplification: the range
of exponents is unbounded (no overflow, no underflow).  Python integers stay exact. -/

namespace TDS

namespace Utils

/-- Floating-point arithmetic (/repo/srg/utils.py:9-29). -/
structure Flt where
  /-- Rounding to a floating-point number. -/
  rnd : ℝ → ℝ
  /-- `x ** n` of a float and an integer. -/
  pow : ℝ → Int → ℝ

/-- A Python integer or a float (/repo/srg/utils.py:9-29). -/
inductive Num where
  | int (n : Int)
  | flt (x : ℝ)

/-- Conversion to a float (/repo/srg/utils.py:15, 17). -/
def Num.toFlt (F : Flt) : Num → ℝ
  | .int n => F.rnd n
  | .flt x => x

/-- `a + b` (/repo/srg/utils.py:15, 17). -/
noncomputable def Num.add (F : Flt) : Num → Num → Num
  | .int a, .int b => .int (a + b)
  | a, b => .flt (F.rnd (a.toFlt F + b.toFlt F))

/-- `a - b` (/repo/srg/utils.py:15, 17). -/
noncomputable def Num.sub (F : Flt) : Num → Num → Num
  | .int a, .int b => .int (a - b)
  | a, b => .flt (F.rnd (a.toFlt F - b.toFlt F))

/-- `a * b` (/repo/srg/utils.py:27). -/
noncomputable def Num.mul (F : Flt) : Num → Num → Num
  | .int a, .int b => .int (a * b)
  | a, b => .flt (F.rnd (a.toFlt F * b.toFlt F))

/-- `a / b`, `b` not zero; the quotient of two integers is rounded once (/repo/srg/utils.py:15, 17). -/
noncomputable def Num.div (F : Flt) : Num → Num → Num
  | .int a, .int b => .flt (F.rnd ((a : ℝ) / b))
  | a, b => .flt (F.rnd (a.toFlt F / b.toFlt F))

/-- `int(a)` (/repo/srg/utils.py:13, 16, 17). -/
noncomputable def Num.toInt : Num → Int
  | .int n => n
  | .flt x => Utils.toInt x

/-- `a ** m`, where zero to a negative power raises `ZeroDivisionError`; an integer to a negative
power is a float (/repo/srg/utils.py:27). -/
noncomputable def Num.pow (F : Flt) (a : Num) (m : Int) : Num :=
  match a with
  | .int n => if 0 ≤ m then .int (n ^ m.toNat) else .flt (F.pow (F.rnd n) m)
  | .flt x => .flt (F.pow x m)

/-- Is `a` zero? (the divisor at /repo/srg/utils.py:17). -/
def Num.isZero : Num → Prop
  | .int n => n = 0
  | .flt x => x = 0

/-- `round(a)` (/repo/srg/utils.py:29). -/
noncomputable def Num.round : Num → Int
  | .int n => n
  | .flt x => pyRound x

open Classical in
/-- `eig` (/repo/srg/utils.py:9-19). -/
noncomputable def eigF (F : Flt) (v k l u : Int) : Res (List (Num × Int)) :=
  let conf := conference v k l u
  let disc : Int := (l - u) ^ 2 + 4 * (k - u)
  if disc < 0 then .error .valueErr
  else
    let D : Num := .flt (F.rnd √(F.rnd disc))
    let D : Num := if conf ≠ 0 then .int D.toInt else D
    if D.isZero then .error (if conf ≠ 0 then .zeroDiv else .valueErr)
    else
      let e : List Num := [.int k, ((Num.int (l - u)).add F D).div F (.int 2),
        ((Num.int (l - u)).sub F D).div F (.int 2)]
      let e := e.map (fun x => if conf ≠ 0 then .int x.toInt else x)
      let q := (Num.int conf).div F D
      let mul : List Int := [1, (((Num.int (v - 1)).sub F q).div F (.int 2)).toInt,
        (((Num.int (v - 1)).add F q).div F (.int 2)).toInt]
      .ok (e.zip mul)

open Classical in
/-- The loop of `determinant` (/repo/srg/utils.py:25-27).  Zero as a numpy float to a negative
power is infinite and makes `round` raise `OverflowError`; it is represented by the same error. -/
noncomputable def prodLoopF (F : Flt) : List (Num × Int) → Num → Res Num
  | [], prod => .ok prod
  | (e, m) :: rest, prod =>
    if e.isZero ∧ m < 0 then .error .zeroDiv else prodLoopF F rest (prod.mul F (e.pow F m))

/-- `determinant` (/repo/srg/utils.py:24-29). -/
noncomputable def determinantF (F : Flt) (v k l u : Int) : Res Int :=
  (eigF F v k l u).bind fun L => (prodLoopF F L (.int 1)).bind fun prod => .ok prod.round

end Utils

namespace Tests

/-- `test_determinant` (/repo/tests/test_database.py:48-66); `eigvals` is `np.linalg.eig(mat)[0]`,
supposed to be real, and `prod` is `np.prod` of floats.  `np.prod` of a tuple of Python integers is
computed in `int64`. -/
noncomputable def testDeterminantF (F : Utils.Flt) (eigvals : Mat → List ℝ) (prod : List ℝ → ℝ)
    (v k l u : Int) (db : List Mat) : Res Unit := do
  let expected ← Utils.determinantF F v k l u
  db.forM (fun mat =>
    let det : Int :=
      if Utils.conference v k l u ≠ 0 then i64 ((eigvals mat).map Utils.pyRound).prod
      else Utils.pyRound (prod (eigvals mat))
    if det = expected then .ok () else .error .assertion)

end Tests

end TDS
