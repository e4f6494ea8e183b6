import Verif.Model.Main

/-! What `python -m srg` prints: /repo/srg/__main__.py:16, 23-25 and `pprint.green`
(/repo/srg/pprint.py:16-18), which prints `repr` of its argument.

`repr` of an array is numpy's, with its default print options: at most 75 columns, three items at
each end of an axis when the array has more than 1000 entries.  This file follows
`_formatArray`, `_extendLine` and `IntegerFormat` of `numpy/core/arrayprint.py`.  The colour codes,
`click.clear` and the text behind the list (`)` or `, dtype=int8)`, which depends on the number
format and on the version of numpy) are left out; the last one is the parameter `tail`. -/

namespace TDS

namespace Print

/-- `n` blanks (numpy `repr` as called at /repo/srg/pprint.py:16). -/
def blanks (n : Nat) : Str := List.replicate n ' '

/-- `line.rstrip()`; the lines hold no other white space than blanks
(numpy `repr` as called at /repo/srg/pprint.py:16). -/
def rstrip (s : Str) : Str := (s.reverse.dropWhile (fun c => c == ' ')).reverse

/-- `'%*d' % (w, x)` (numpy `repr` as called at /repo/srg/pprint.py:16). -/
def fmt (w : Nat) (x : Int) : Str := blanks (w - (intStr x).length) ++ intStr x

/-- The width `IntegerFormat` takes: the larger of the lengths of the maximum and the minimum
(numpy `repr` as called at /repo/srg/pprint.py:16). -/
def width (data : Vec) : Nat :=
  max (intStr (data.foldl max (data.headD 0))).length (intStr (data.foldl min (data.headD 0))).length

/-- `_extendLine`: the text before the current line, and the current line
(numpy `repr` as called at /repo/srg/pprint.py:16). -/
def extendLine (pre : Str) (w : Nat) (sl : Str × Str) (word : Str) : Str × Str :=
  if sl.2.length + word.length > w ∧ ¬ sl.2.length ≤ pre.length then
    (sl.1 ++ rstrip sl.2 ++ ['\n'], pre ++ word)
  else (sl.1, sl.2 ++ word)

/-- `_extendLine` followed by `line += separator` (numpy `repr` as called at /repo/srg/pprint.py:16). -/
def extendSep (pre : Str) (w : Nat) (sl : Str × Str) (word : Str) : Str × Str :=
  let r := extendLine pre w sl word
  (r.1, r.2 ++ [',', ' '])

/-- Items of an axis shown in front of `...`, and behind it: all of them behind it if the axis is
not shortened (numpy `repr` as called at /repo/srg/pprint.py:16). -/
def ends {α : Type} (big : Bool) (a : List α) : List α × List α :=
  if big ∧ 6 < a.length then (a.take 3, a.drop (a.length - 3)) else ([], a)

/-- The words of a row, with `...` where items are left out (numpy `repr` as called at /repo/srg/pprint.py:16). -/
def rowWords (big : Bool) (w : Nat) (row : Vec) : List Str :=
  let e := ends big row
  e.1.map (fmt w) ++ (if big ∧ 6 < row.length then [['.', '.', '.']] else []) ++ e.2.map (fmt w)

/-- The last axis in `_formatArray`: the words, wrapped at 72 columns, in brackets
(numpy `repr` as called at /repo/srg/pprint.py:16). -/
def rowText (words : List Str) : Str :=
  let sl := words.dropLast.foldl (extendSep (blanks 8) 72) ([], blanks 8)
  let r := extendLine (blanks 8) 72 sl (words.getLastD [])
  '[' :: (r.1 ++ r.2).drop 8 ++ [']']

/-- The first axis in `_formatArray`: the lines of an array, in brackets
(numpy `repr` as called at /repo/srg/pprint.py:16). -/
def joinRows : List Str → Str
  | [] => []
  | [r] => r
  | r :: rs => r ++ ([',', '\n'] ++ blanks 7) ++ joinRows rs

/-- The lines of a two-dimensional array, with `...` where rows are left out
(numpy `repr` as called at /repo/srg/pprint.py:16). -/
def lines (big : Bool) (w : Nat) (M : Mat) : List Str :=
  let e := ends big M
  e.1.map (fun r => rowText (rowWords big w r)) ++
    (if big ∧ 6 < M.length then [['.', '.', '.']] else []) ++
    e.2.map (fun r => rowText (rowWords big w r))

/-- The entries that are shown (`_leading_trailing`) (numpy `repr` as called at /repo/srg/pprint.py:16). -/
def data (big : Bool) (M : Mat) : Vec :=
  ((ends big M).1 ++ (ends big M).2).flatMap (fun r => (ends big r).1 ++ (ends big r).2)

/-- More than 1000 entries (numpy `repr` as called at /repo/srg/pprint.py:16). -/
def isBig (M : Mat) : Bool := decide (1000 < M.length * (M.headD []).length)

/-- `repr` of a two-dimensional array with at least one entry (numpy `repr` as called at /repo/srg/pprint.py:16). -/
def reprMat (tail : Str) (M : Mat) : Str :=
  ['a', 'r', 'r', 'a', 'y', '(', '['] ++ joinRows (lines (isBig M) (width (data (isBig M) M)) M) ++ ']' :: tail

/-- `print(v, k, l, u)` (/repo/srg/__main__.py:16). -/
def header (v k l u : Int) : Str :=
  intStr v ++ ' ' :: intStr k ++ ' ' :: intStr l ++ ' ' :: intStr u

/-- `pprint.green('*********** answers *************')` (/repo/srg/__main__.py:23): `repr` of a
string puts quotes around it. -/
def banner : Str := "'*********** answers *************'".toList

/-- What `python -m srg` prints, and the exception it stops with, if any (/repo/srg/__main__.py:12-25). -/
def run (tail : Str) (argv : List Str) : List Str × Option Err :=
  match argv.mapM parseInt with
  | .error e => ([], some e)
  | .ok [v, k, l, u] =>
    match main argv with
    | .error e => ([header v k l u], some e)
    | .ok ans => (header v k l u :: banner :: ans.map (reprMat tail), none)
  | .ok _ => ([], some .valueErr)

end Print

end TDS
