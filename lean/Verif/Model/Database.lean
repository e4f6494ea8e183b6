import Verif.Model.Np
import Mathlib.Data.Nat.Digits.Defs

/-! `srg/database/__init__.py` and `srg/database/__main__.py`.

Python strings are lists of characters.  CPython's limit on the length of decimal numbers (4300
digits) and the non-ASCII characters that `int` accepts are not represented. -/

namespace TDS

/-- A Python string (/repo/srg/database/__init__.py:34-41). -/
abbrev Str := List Char

/-- The decimal digit `d` (/repo/srg/database/__init__.py:40, the f-string). -/
def digitChar (d : Nat) : Char := Char.ofNat (48 + d)

/-- `str(n)` of a nonnegative integer (/repo/srg/database/__init__.py:40, the f-string). -/
def natStr (n : Nat) : Str := if n = 0 then ['0'] else (Nat.digits 10 n).reverse.map digitChar

/-- `str(n)` (/repo/srg/database/__init__.py:40, the f-string). -/
def intStr : Int → Str
  | .ofNat n => natStr n
  | .negSucc n => '-' :: natStr (n + 1)

/-- ASCII whitespace, as removed by `int` (/repo/srg/__main__.py:15; /repo/srg/database/__init__.py:36). -/
def isSpace (c : Char) : Bool :=
  c = ' ' || c = '\t' || c = '\n' || c = '\r' || c = Char.ofNat 11 || c = Char.ofNat 12

/-- `s.strip()` (`int` at /repo/srg/__main__.py:15; /repo/srg/database/__init__.py:36). -/
def strip (s : Str) : Str := ((s.dropWhile isSpace).reverse.dropWhile isSpace).reverse

/-- Value of a digit character (`int` at /repo/srg/__main__.py:15; /repo/srg/database/__init__.py:36). -/
def digitVal (c : Char) : Option Nat :=
  if 48 ≤ c.toNat ∧ c.toNat ≤ 57 then some (c.toNat - 48) else none

/-- Digits with single underscores between them; `prev` says that the last character was a
digit (`int` at /repo/srg/__main__.py:15; /repo/srg/database/__init__.py:36). -/
def digitsVal : Nat → Bool → Str → Option Nat
  | acc, prev, [] => if prev then some acc else none
  | acc, prev, c :: t =>
    match digitVal c with
    | some d => digitsVal (acc * 10 + d) true t
    | none => if c = '_' ∧ prev then digitsVal acc false t else none

/-- `int(s)` (/repo/srg/__main__.py:15; /repo/srg/database/__init__.py:36). -/
def parseInt (s : Str) : Res Int :=
  match strip s with
  | [] => .error .valueErr
  | c :: t =>
    if c = '-' then
      match digitsVal 0 false t with
      | some n => .ok (-(n : Int))
      | none => .error .valueErr
    else
      match digitsVal 0 false (if c = '+' then t else c :: t) with
      | some n => .ok n
      | none => .error .valueErr

namespace Database

/-- `problem.split('_')` (/repo/srg/database/__init__.py:35). -/
def split : Str → List Str
  | [] => [[]]
  | c :: t =>
    if c = '_' then [] :: split t
    else match split t with
      | h :: r => (c :: h) :: r
      | [] => [[c]]

/-- `extract_vklu` (/repo/srg/database/__init__.py:34-36). -/
def extractVklu (problem : Str) : Res (List Int) :=
  match split problem with
  | [] => .error .valueErr
  | _ :: vklu => vklu.mapM parseInt

/-- The module name without the package prefix (/repo/srg/database/__init__.py:40). -/
def moduleName (v k l u : Int) : Str :=
  "problem_".toList ++ intStr v ++ '_' :: intStr k ++ '_' :: intStr l ++ '_' :: intStr u

/-- The modules of the package: name and value of `solutions` (/repo/srg/database/__init__.py:39-42). -/
abbrev Modules := List (Str × List Mat)

/-- `list_problems` (/repo/srg/database/__init__.py:29-32), for a package with modules `ms`. -/
def listProblems (ms : Modules) : List Str :=
  (ms.map (fun p => p.1)).filter (fun n => "problem".toList.isPrefixOf n)

/-- `get_solutions` (/repo/srg/database/__init__.py:38-42), for a package with modules `ms`. -/
def getSolutions (ms : Modules) (v k l u : Int) : Res (List Mat) :=
  match ms.find? (fun p => p.1 = moduleName v k l u) with
  | some p => .ok p.2
  | none => .error .importErr

/-- The modules and packages inside `srg` (the files of /repo/srg) (/repo/srg/database/__main__.py:2). -/
def submodules : List Str :=
  ["bounds", "database", "fork", "gauss_elim", "partition", "pprint", "solver", "sorter", "srg",
    "unique", "utils"].map String.toList

/-- The import at the head of `python -m srg.database` (/repo/srg/database/__main__.py:1-2), for a
package with the given submodules.  What follows is in `Model/DbMain.lean`. -/
def dbMain (subs : List Str) : Res Unit :=
  if "util".toList ∈ subs then .ok () else .error .importErr

end Database

end TDS
