import Verif.SpecM
import Mathlib.Combinatorics.SimpleGraph.StronglyRegular

/-! Specification of lists of matrices as lists of graphs. -/

namespace Spec

/-- `m` is an adjacency matrix of `G` for some numbering of the vertices. -/
def Depicts {V : Type*} (v : Nat) (m : Matrix) (G : SimpleGraph V) : Prop :=
  ∃ e : V ≃ Fin v, ∀ a b, G.Adj a b ↔ ent m (e a) (e b) = 1

/-- Every strongly regular graph with the given parameters is in the list, up to isomorphism. -/
def Complete.{w} (v k l u : Nat) (sols : List Matrix) : Prop :=
  ∀ (V : Type w) [Fintype V] [DecidableEq V] (G : SimpleGraph V) [DecidableRel G.Adj],
    G.IsSRGWith v k l u → ∃ m ∈ sols, Depicts v m G

/-- All strongly regular graphs with the given parameters are isomorphic. -/
def Alone.{w, w'} (v k l u : Nat) : Prop :=
  ∀ (V : Type w) [Fintype V] [DecidableEq V] (G : SimpleGraph V) [DecidableRel G.Adj]
    (W : Type w') [Fintype W] [DecidableEq W] (H : SimpleGraph W) [DecidableRel H.Adj],
    G.IsSRGWith v k l u → H.IsSRGWith v k l u → Nonempty (G ≃g H)

/-- Every row is justified to the left inside the classes of columns that agree above it. -/
def Justified (v : Nat) (m : Matrix) : Prop :=
  ∀ R < v, LeftJustified v (m.take R) (m.getD R [])

/-- Up to isomorphism there are exactly `n` strongly regular graphs with the given parameters. -/
def Classified.{w} (v k l u n : Nat) : Prop :=
  ∃ reps : List Matrix, reps.length = n ∧ (∀ m ∈ reps, IsSRG v k l u m) ∧
    reps.Pairwise (fun m m' => ¬ Relabels v m m') ∧ Complete.{w} v k l u reps

end Spec
