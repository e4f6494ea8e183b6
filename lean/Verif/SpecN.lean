import Verif.SpecG

/-! Specification of the numberings of the vertices of a graph. -/

namespace Spec

/-- The adjacency matrix of `G` when `σ` numbers the vertices. -/
def matrixOf {V : Type*} (G : SimpleGraph V) [DecidableRel G.Adj] {v : Nat} (σ : Fin v ≃ V) :
    Matrix :=
  (List.finRange v).map (fun i => (List.finRange v).map (fun j =>
    if G.Adj (σ i) (σ j) then 1 else 0))

/-- The numberings of `G` whose adjacency matrix is justified to the left. -/
def Numbering {V : Type*} (G : SimpleGraph V) [DecidableRel G.Adj] (v : Nat) : Type _ :=
  {σ : Fin v ≃ V // Justified v (matrixOf G σ)}

/-- The matrices of a list that depict `G`. -/
def Copies {V : Type*} (G : SimpleGraph V) (v : Nat) (sols : List Matrix) : Type :=
  {m : Matrix // m ∈ sols ∧ Depicts v m G}

/-- `c` vertices, any two of them adjacent, in a fixed order. -/
def OrderedClique {V : Type*} (G : SimpleGraph V) {c : Nat} (x : Fin c → V) : Prop :=
  ∀ i j, i ≠ j → G.Adj (x i) (x j)

end Spec
