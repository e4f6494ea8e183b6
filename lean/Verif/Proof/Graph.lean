import Verif.SpecG
import Verif.Proof.Arrays

/-! The graph of an adjacency matrix. -/

namespace TDS

open Spec

/-- The graph with the given adjacency matrix. -/
def graphOf (v : Nat) (m : Mat) : SimpleGraph (Fin v) :=
  SimpleGraph.fromRel (fun i j => ent m i j = 1)

instance (v : Nat) (m : Mat) : DecidableRel (graphOf v m).Adj := by
  unfold graphOf
  infer_instance

theorem graphOf_adj {v : Nat} {k l u : Int} {m : Mat} (h : IsSRG v k l u m) (i j : Fin v) :
    (graphOf v m).Adj i j ↔ ent m i j = 1 := by
  obtain ⟨-, -, hd, hs, -, -⟩ := isSRG_iff.1 h
  unfold graphOf
  rw [SimpleGraph.fromRel_adj, hs j i, or_self]
  constructor
  · exact fun h => h.2
  · intro h
    refine ⟨?_, h⟩
    rintro rfl
    rw [hd] at h
    cases h

theorem graphOf_depicts {v : Nat} {k l u : Int} {m : Mat} (h : IsSRG v k l u m) :
    Depicts v m (graphOf v m) :=
  ⟨Equiv.refl _, graphOf_adj h⟩

theorem graphOf_srg {v k l u : Nat} {m : Mat} (h : IsSRG v k l u m) :
    (graphOf v m).IsSRGWith v k l u := by
  have hadj := graphOf_adj h
  obtain ⟨-, hb, hd, hs, hk, hm⟩ := isSRG_iff.1 h
  have hc : ∀ i j : Fin v, ((Fintype.card ((graphOf v m).commonNeighbors i j) : Nat) : Int) =
      ∑ t : Fin v, ent m i t * ent m j t := by
    intro i j
    rw [Fintype.card_subtype, ← Finset.sum_boole]
    apply Finset.sum_congr rfl
    intro t _
    have : t ∈ (graphOf v m).commonNeighbors i j ↔ ent m i t = 1 ∧ ent m j t = 1 := by
      rw [SimpleGraph.mem_commonNeighbors, hadj, hadj]
    simp only [this]
    rcases hb i t with h1 | h1 <;> rcases hb j t with h2 | h2 <;> simp [h1, h2]
  refine ⟨Fintype.card_fin v, ?_, ?_, ?_⟩
  · intro i
    have : (((graphOf v m).degree i : Nat) : Int) = ∑ t : Fin v, ent m i t := by
      rw [← SimpleGraph.card_neighborFinset_eq_degree, SimpleGraph.neighborFinset_eq_filter,
        ← Finset.sum_boole]
      apply Finset.sum_congr rfl
      intro t _
      simp only [hadj]
      rcases hb i t with h1 | h1 <;> simp [h1]
    rw [hk] at this
    exact_mod_cast this
  · intro i j hij
    have h1 := hc i j
    rw [hm i j hij.ne, if_pos ((hadj i j).1 hij)] at h1
    exact_mod_cast h1
  · intro i j hne hij
    have h1 := hc i j
    rw [hm i j hne, if_neg (fun e => hij ((hadj i j).2 e))] at h1
    exact_mod_cast h1

/-- Two matrices of one graph are relabellings of each other. -/
theorem Depicts.relabels {V : Type*} {G : SimpleGraph V} {v : Nat} {m m' : Mat}
    (h : Depicts v m G) (h' : Depicts v m' G)
    (hb : ∀ i j : Fin v, ent m i j = 0 ∨ ent m i j = 1)
    (hb' : ∀ i j : Fin v, ent m' i j = 0 ∨ ent m' i j = 1) : Relabels v m m' := by
  obtain ⟨e, he⟩ := h
  obtain ⟨f, hf⟩ := h'
  refine ⟨f.symm.trans e, ?_⟩
  intro i j
  have := (hf (f.symm i) (f.symm j)).symm.trans (he _ _)
  rw [Equiv.apply_symm_apply, Equiv.apply_symm_apply] at this
  rw [Equiv.trans_apply, Equiv.trans_apply]
  rcases hb' i j with h1 | h1
  · rcases hb (e (f.symm i)) (e (f.symm j)) with h2 | h2
    · rw [h1, h2]
    · have := this.2 h2
      omega
  · rw [h1, this.1 h1]

/-- In a complete list every strongly regular matrix has a relabelled copy. -/
theorem Complete.relabels {v k l u : Nat} {L : List Mat} (h : Complete.{0} v k l u L)
    (hL : ∀ m ∈ L, IsSRG v k l u m) {m : Mat} (hm : IsSRG v k l u m) : ∃ m' ∈ L, Relabels v m' m := by
  obtain ⟨m', hm', hd⟩ := h (Fin v) (graphOf v m) (graphOf_srg hm)
  exact ⟨m', hm', Depicts.relabels hd (graphOf_depicts hm) (isSRG_iff.1 (hL m' hm')).2.1
    (isSRG_iff.1 hm).2.1⟩

end TDS
