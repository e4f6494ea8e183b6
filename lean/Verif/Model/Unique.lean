import Verif.Model.Small

/-! Column compression `unique.reduce`/`unique.expand` and `gauss_elim.sort`. -/

namespace TDS

/-- Contract assumed of `np.argsort` (library behaviour): the result is a permutation of the
positions that makes the values nondecreasing.  Ties may be broken in any way
(/repo/srg/sorter.py:61; /repo/srg/gauss_elim.py:137). -/
structure IsArgsort (argsort : Vec → List Nat) : Prop where
  perm : ∀ a : Vec, (argsort a).Perm (List.range a.length)
  sorted : ∀ a : Vec, ((argsort a).map (fun i => a.getD i 0)).Pairwise (· ≤ ·)

namespace Unique

/-- `unique_loc` (/repo/srg/unique.py:25-28): position 0 and every position whose code differs
from the one before it.  The differences are taken in `int64`. -/
def uniqueLoc (enc : Vec) : List Nat :=
  0 :: (npWhere (fun x => x != 0) ((npDiff enc).map i64)).map (· + 1)

/-- `reduce` (/repo/srg/unique.py:24-32): the kept columns, the multiplicities and the
positions.  Taking column 0 of an array without columns is an `IndexError`. -/
def reduce (A : Mat) : Res (Mat × Vec × List Nat) := do
  let enc ← encode A
  let loc := uniqueLoc enc
  let bounds := npDiff (loc.map (fun (i : Nat) => (i : Int)))
  let bounds := bounds ++ [(enc.length : Int) - bounds.sum]
  if enc.length = 0 then .error .index
  else .ok (A.map (fun r => loc.map (fun j => r.getD j 0)), bounds, loc)

/-- The loop of `expand` (/repo/srg/unique.py:38-42) from column `c` on: the blocks to be stacked.
A column that does not exist is an `IndexError`, a negative repeat count a `ValueError`. -/
def expandLoop (A : Mat) : Nat → Vec → Res (List Mat)
  | _, [] => .ok []
  | c, rep :: t =>
    if ncols A ≤ c then .error .index
    else if rep < 0 then .error .valueErr
    else do
      let rest ← expandLoop A (c + 1) t
      .ok ((col A c).map (fun a => List.replicate rep.toNat a) :: rest)

/-- `expand` (/repo/srg/unique.py:35-44).  `np.hstack` of no blocks is a `ValueError`. -/
def expand (A : Mat) (bounds : Vec) : Res Mat := do
  let blocks ← expandLoop A 0 bounds
  match blocks with
  | [] => .error .valueErr
  | _ => .ok ((List.range A.length).map (fun i => (blocks.map (fun B => B.getD i [])).flatten))

end Unique

namespace Gauss

/-- `sort` (/repo/srg/gauss_elim.py:136-139), which writes its result into its arguments; here the
new contents are returned.  `b` longer than `A`: an index out of range.  `b` shorter than `A`: the
assignment `A[:, :] = A[argsort, :]` fails, except that a single row is broadcast. -/
def sort (argsort : Vec → List Nat) (A : Mat) (b : Vec) : Res (Mat × Vec) :=
  if A.length < b.length then .error .index
  else if A.length = b.length then
    .ok ((argsort b).map (fun i => A.getD i []), (argsort b).map (fun i => b.getD i 0))
  else if b.length = 1 then .ok (A.map (fun _ => A.getD 0 []), b)
  else .error .valueErr

end Gauss

end TDS
