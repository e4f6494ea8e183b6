import Verif.Model.Srg
import Verif.Spec

/-! What the fields of a `Question` say about the values of its buckets, spelled out without any
helper of the model. -/

namespace Spec

/-- Values of `y` at the positions where `v` is unknown (`-1`), in order. -/
def unknowns (v y : Row) : Row := ((v.zip y).filter (fun p => p.1 == -1)).map Prod.snd

/-- Position after the last cell of bucket `i`: the next location, or the length for the last
bucket. -/
def bucketEnd (loc : Row) (len : Int) (i : Nat) : Int := (loc ++ [len]).getD (i + 1) 0

/-- Sum of the cells of bucket `i` of the vector `z`. -/
def bucketSum (loc : Row) (len : Int) (z : Row) (i : Nat) : Int :=
  (((List.range z.length).filter
    (fun (j : Nat) => decide (loc.getD i 0 ≤ j) && decide ((j : Int) < bucketEnd loc len i))).map
      (fun j => z.getD j 0)).sum

/-- `y` gives every bucket a number of ones that fits, agrees with the values already known, and
the values of the unknown buckets satisfy the equations, bounds and total of the question. -/
structure Admits (Q : TDS.Question) (y : Row) : Prop where
  len : y.length = Q.ans.v.length
  known : ∀ i < y.length, Q.ans.v.getD i 0 ≠ -1 → y.getD i 0 = Q.ans.v.getD i 0
  fits : ∀ i < y.length, 0 ≤ y.getD i 0 ∧
    y.getD i 0 ≤ bucketEnd Q.ans.loc Q.ans.len i - Q.ans.loc.getD i 0
  count : (unknowns Q.ans.v y).length = Q.bounds.length
  solves : Solves Q.A Q.b (unknowns Q.ans.v y)
  bound : ∀ j < Q.bounds.length, (unknowns Q.ans.v y).getD j 0 ≤ Q.bounds.getD j 0
  quota : (unknowns Q.ans.v y).sum = Q.quota

end Spec
