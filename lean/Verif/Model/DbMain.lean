import Verif.Model.Draw

/-! `srg/database/__main__.py`.

The program as it stands stops at its second line, because there is no module `srg.util`.  So that
the rest can be talked about, the module is a parameter: it may be absent, present without the
function `assert_arg`, or present with it.  What `pprint` makes of a list is left out. -/

namespace TDS

namespace Database

/-- What `from srg import util` finds (/repo/srg/database/__main__.py:2, 20). -/
inductive UtilModule where
  | absent
  | withoutFunction
  | withFunction (assertArg : Int → Int → Int → Int → Res Unit)

/-- How the program ends (/repo/srg/database/__main__.py:1-26). -/
inductive Stop where
  | finished
  | importError
  | attributeError
  | systemExit (message : Str)
  | raised (e : Err)
  deriving DecidableEq

/-- What the program puts out, apart from the hint (/repo/srg/database/__main__.py:18, 22, 24). -/
inductive Shown where
  | nothing
  | names (ns : List Str)
  | matrices (ms : List Mat)
  | figures (fs : List Draw.Figure)
  deriving DecidableEq

/-- A run: whether the line `provide v,k,l,u arguments` is printed, what is shown, and the end
(/repo/srg/database/__main__.py:6-26). -/
structure DbRun where
  hint : Bool
  shown : Shown
  stop : Stop
  deriving DecidableEq

/-- `cmd` (/repo/srg/database/__main__.py:6-9); `argv` is `sys.argv[1:]`. -/
def command (argv : List Str) : Str := argv.headD "list".toList

/-- `v,k,l,u` (/repo/srg/database/__main__.py:11-15): `none` stands for the four `None`s, after a
`ValueError` of `int` or of the unpacking. -/
def parameters (argv : List Str) : Option (Int × Int × Int × Int) :=
  match ((argv.drop 1).take 4).mapM parseInt with
  | .ok [v, k, l, u] => some (v, k, l, u)
  | _ => none

/-- /repo/srg/database/__main__.py:21-26, behind the check of the parameters. -/
def perform (ms : Modules) (cmd : Str) (v k l u : Int) : Shown × Stop :=
  if cmd = "list".toList then
    match getSolutions ms v k l u with
    | .ok sols => (.matrices sols, .finished)
    | .error e => (.nothing, .raised e)
  else if cmd = "draw".toList then
    match Draw.draw ms v k l u with
    | .ok figs => (.figures figs, .finished)
    | .error e => (.nothing, .raised e)
  else (.nothing, .systemExit ("command ".toList ++ cmd ++
    " is not recognized. support list or draw".toList))

/-- `python -m srg.database` (/repo/srg/database/__main__.py:1-26) for a package with modules `ms`. -/
def dbRun (util : UtilModule) (ms : Modules) (argv : List Str) : DbRun :=
  match util with
  | .absent => ⟨false, .nothing, .importError⟩
  | .withoutFunction =>
    match parameters argv with
    | none => ⟨true, .names (listProblems ms), .finished⟩
    | some _ => ⟨false, .nothing, .attributeError⟩
  | .withFunction assertArg =>
    match parameters argv with
    | none => ⟨true, .names (listProblems ms), .finished⟩
    | some (v, k, l, u) =>
      match assertArg v k l u with
      | .error e => ⟨false, .nothing, .raised e⟩
      | .ok () => ⟨false, (perform ms (command argv) v k l u).1,
          (perform ms (command argv) v k l u).2⟩

end Database

end TDS
