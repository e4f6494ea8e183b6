import Verif.Model.Check
import Verif.Model.Repr

/-! What `utils.debug` (/repo/srg/utils.py:46-74) prints.  Colours are kept as such, the escape codes
that `click` makes of them are not represented. -/

namespace TDS

namespace Debug

open Print

/-- What is written to the terminal (/repo/srg/utils.py:53-68; /repo/srg/pprint.py:16-20). -/
inductive Piece where
  /-- `print(...)`. -/
  | plain (s : Str)
  /-- `pprint.blue(...)` (/repo/srg/pprint.py:17-20). -/
  | blue (s : Str)
  /-- `pprint.green(...)` (/repo/srg/pprint.py:17-20). -/
  | green (s : Str)
  /-- `pprint.red(...)` (/repo/srg/pprint.py:17-20). -/
  | red (s : Str)
  deriving DecidableEq

/-- The beginning of the messages, with the quotation mark that `repr` in /repo/srg/pprint.py:16
adds. -/
def tPerforming : Str := "'performing ".toList

/-- End of the blue message (/repo/srg/utils.py:53). -/
def tNoChange : Str := ". No change'".toList

/-- End of the green message (/repo/srg/utils.py:56). -/
def tReduce : Str := ". reduce to'".toList

/-- End of the red message (/repo/srg/utils.py:65). -/
def tAssertion : Str := ". AssertionError!'".toList

/-- `utils.debug(func)` for a step that updates its argument in place: what is printed, and the
result.  `name` is `func.__name__` (/repo/srg/utils.py:46-74). -/
def debugText (name : Str) (f : Question → Res Question) (Q : Question) : List Piece × Res Question :=
  match (do
    let a ← Answer.mk' Q.ans.v Q.ans.loc Q.ans.len
    let R ← Question.mk' Q.A Q.b Q.quota Q.bounds (some a)
    let Q' ← f Q
    .ok (R, Q') : Res (Question × Question)) with
  | .error e => ([], .error e)
  | .ok (R, Q') =>
    let first := if Q'.pyEq R then [.blue (tPerforming ++ name ++ tNoChange)]
      else [.plain (reprQuestion R), .green (tPerforming ++ name ++ tReduce), .plain (reprQuestion Q')]
    match Q'.invariantCheck with
    | .ok _ => (first, .ok Q')
    | .error .assertion => (first ++ [.plain (reprQuestion R),
        .red (tPerforming ++ name ++ tAssertion), .plain (reprQuestion Q'), .plain []], .error .assertion)
    | .error e => (first, .error e)

/-- `utils.debug(fork_enum)`: the generator has not run when the question is compared
(/repo/srg/utils.py:46-74 and /repo/srg/solver.py:158-183). -/
def debugForkText (Q : Question) : List Piece × Res Question :=
  debugText "fork_enum".toList checkAfter Q

/-- The decorated steps (/repo/srg/solver.py:56-155) with their names, which `wraps` keeps. -/
def steps : List (Str × (Question → Res Question)) :=
  [("reduce_col".toList, reduceCol), ("eliminate".toList, eliminate), ("zero_in_b".toList, zeroInB),
    ("only_1_element_in_row".toList, only1)]

end Debug

end TDS
