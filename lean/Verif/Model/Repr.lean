import Verif.Model.Print

/-! `Answer.__repr__` (/repo/srg/srg.py:57-58) and `Question.__repr__` (/repo/srg/srg.py:112-142).

Arrays inside f-strings are printed by `str`, those with `repr` by `repr`; both are numpy's, with its
default print options, for arrays of at most 1000 entries (numpy shortens longer ones).  The values of
an answer are `int8`, its locations `int64`; `repr` names the type unless it is the default `int64` of
a nonempty array. -/

namespace TDS

namespace Print

/-! The texts between the values. -/

/-- /repo/srg/srg.py:58. -/
def tArray : Str := "array(".toList
/-- /repo/srg/srg.py:58. -/
def tDtype : Str := "dtype=".toList
/-- /repo/srg/srg.py:58. -/
def tInt8 : Str := "int8".toList
/-- /repo/srg/srg.py:58. -/
def tInt64 : Str := "int64".toList
/-- /repo/srg/srg.py:58. -/
def tAnswer : Str := "Answer(value=".toList
/-- /repo/srg/srg.py:58. -/
def tLocation : Str := ", \n    location=".toList
/-- /repo/srg/srg.py:58. -/
def tLen : Str := ", len=".toList
/-- /repo/srg/srg.py:134. -/
def tHead : Str := "b\tA_(".toList
/-- /repo/srg/srg.py:138. -/
def tX : Str := "x=\t[".toList
/-- /repo/srg/srg.py:138. -/
def tOf : Str := "]_(".toList
/-- /repo/srg/srg.py:132, 138. -/
def tQuota : Str := "x1)\tquota=sum(x)=".toList
/-- /repo/srg/srg.py:139. -/
def tBnd : Str := "\nbnd\t".toList

/-- The last axis in `_formatArray`: words wrapped at `w` columns with indentation `pre`, in
brackets (numpy text of arrays at /repo/srg/srg.py:58, 136, 139). -/
def wrap (pre : Str) (w : Nat) (sep : Str) (words : List Str) : Str :=
  let sl := words.dropLast.foldl (fun sl word =>
    ((extendLine pre w sl word).1, (extendLine pre w sl word).2 ++ sep)) ([], pre)
  let r := extendLine pre w sl (words.getLastD [])
  '[' :: (r.1 ++ r.2).drop pre.length ++ [']']

/-- `str` of a one-dimensional array (/repo/srg/srg.py:136, 139). -/
def strVec (a : Vec) : Str :=
  if a.isEmpty then ['[', ']'] else wrap (blanks 1) 74 [' '] (a.map (fmt (width a)))

/-- The list in `repr` of a one-dimensional array (/repo/srg/srg.py:58). -/
def listVec (a : Vec) : Str :=
  if a.isEmpty then ['[', ']'] else wrap (blanks 7) 73 [',', ' '] (a.map (fmt (width a)))

/-- Length of the last line of a text (numpy `repr` at /repo/srg/srg.py:58). -/
def lastLine (s : Str) : Nat := (s.reverse.takeWhile (fun c => c != '\n')).length

/-- `repr` of a one-dimensional array whose type is named, or not (/repo/srg/srg.py:58). -/
def reprVec (dtype : Option Str) (a : Vec) : Str :=
  match dtype with
  | none => tArray ++ listVec a ++ [')']
  | some name =>
    let s := tArray ++ listVec a ++ [',']
    let t := tDtype ++ name ++ [')']
    s ++ (if lastLine s + t.length + 1 > 75 then '\n' :: blanks 6 else [' ']) ++ t

/-- `Answer.__repr__` (/repo/srg/srg.py:57-58). -/
def reprAnswer (a : Answer) : Str :=
  tAnswer ++ reprVec (some tInt8) a.v ++ tLocation ++
    reprVec (if a.loc.isEmpty then some tInt64 else none) a.loc ++ tLen ++
    intStr a.len ++ [')']

/-- One line of the loop in `Question.__repr__` (/repo/srg/srg.py:135-136). -/
def equationLine (b : Int) (a : Vec) : Str := intStr b ++ '\t' :: strVec a ++ ['\n']

/-- `' '.join('?' * C)` (/repo/srg/srg.py:131). -/
def marks : Nat → Str
  | 0 => []
  | 1 => ['?']
  | n + 1 => '?' :: ' ' :: marks n

/-- `Question.__repr__` (/repo/srg/srg.py:112-142) of a question with at least one equation. -/
def reprQuestion (Q : Question) : Str :=
  tHead ++ intStr Q.A.length ++ ['x'] ++ intStr (ncols Q.A) ++ [')', '\n'] ++
    (Q.b.zip Q.A).flatMap (fun p => equationLine p.1 p.2) ++
    tX ++ marks (ncols Q.A) ++ tOf ++ intStr (ncols Q.A) ++
    tQuota ++ intStr Q.quota ++ tBnd ++ strVec Q.bounds ++ ['\n'] ++
    reprAnswer Q.ans

end Print

end TDS
