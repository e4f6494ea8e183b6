import Verif.Proof.Start
import Mathlib.Combinatorics.SimpleGraph.StronglyRegular

/-! C01: the search finds every strongly regular graph up to isomorphism. -/

namespace TDS

open Finset

variable {V : Type*} [Fintype V] [DecidableEq V]

/-- Adjacency array of a graph whose vertices are numbered by `σ`. -/
def arrayOf (G : SimpleGraph V) [DecidableRel G.Adj] {v : ℕ} (σ : Fin v ≃ V) (i j : ℕ) : Int :=
  if h : i < v ∧ j < v then (if G.Adj (σ ⟨i, h.1⟩) (σ ⟨j, h.2⟩) then 1 else 0) else 0

theorem arrayOf_fin (G : SimpleGraph V) [DecidableRel G.Adj] {v : ℕ} (σ : Fin v ≃ V) (i j : Fin v) :
    arrayOf G σ i j = if G.Adj (σ i) (σ j) then 1 else 0 := by
  unfold arrayOf
  rw [dif_pos ⟨i.2, j.2⟩]

theorem sum_arrayOf {v : ℕ} (σ : Fin v ≃ V) (f : V → Int) (g : ℕ → Int)
    (h : ∀ i : Fin v, g i = f (σ i)) : ∑ t ∈ range v, g t = ∑ a : V, f a := by
  rw [Finset.sum_range, ← Equiv.sum_comp σ]
  exact Finset.sum_congr rfl (fun i _ => h i)

theorem arr_of_srg {G : SimpleGraph V} [DecidableRel G.Adj] {v k l u : ℕ}
    (h : G.IsSRGWith v k l u) (σ : Fin v ≃ V) : Arr v k l u (arrayOf G σ) := by
  refine ⟨?_, ?_, ?_, ?_, ?_⟩
  · intro i j
    unfold arrayOf
    split
    · split <;> simp
    · simp
  · intro i hi
    rw [arrayOf_fin G σ ⟨i, hi⟩ ⟨i, hi⟩, if_neg (G.loopless.irrefl _)]
  · intro i hi j hj
    rw [arrayOf_fin G σ ⟨i, hi⟩ ⟨j, hj⟩, arrayOf_fin G σ ⟨j, hj⟩ ⟨i, hi⟩]
    simp only [G.adj_comm]
  · intro i hi
    rw [sum_arrayOf σ (fun a => if G.Adj (σ ⟨i, hi⟩) a then 1 else 0) _
      (fun t => arrayOf_fin G σ ⟨i, hi⟩ t)]
    have := h.regular.degree_eq (σ ⟨i, hi⟩)
    rw [← this, ← G.card_neighborFinset_eq_degree, G.neighborFinset_eq_filter, Finset.sum_boole]
  · intro i hi j hj hij
    rw [sum_arrayOf σ (fun a => if G.Adj (σ ⟨i, hi⟩) a ∧ G.Adj (σ ⟨j, hj⟩) a then 1 else 0) _
      (fun t => by
        rw [arrayOf_fin G σ ⟨i, hi⟩ t, arrayOf_fin G σ ⟨j, hj⟩ t]
        by_cases h1 : G.Adj (σ ⟨i, hi⟩) (σ t) <;> by_cases h2 : G.Adj (σ ⟨j, hj⟩) (σ t) <;>
          simp [h1, h2])]
    have hc : ((Fintype.card (G.commonNeighbors (σ ⟨i, hi⟩) (σ ⟨j, hj⟩)) : ℕ) : Int) =
        ∑ a : V, if G.Adj (σ ⟨i, hi⟩) a ∧ G.Adj (σ ⟨j, hj⟩) a then 1 else 0 := by
      rw [Finset.sum_boole, Fintype.card_subtype]
      congr 2
    rw [← hc, arrayOf_fin G σ ⟨i, hi⟩ ⟨j, hj⟩]
    have hne : σ ⟨i, hi⟩ ≠ σ ⟨j, hj⟩ := by
      intro e
      have := σ.injective e
      rw [Fin.mk.injEq] at this
      exact hij this
    by_cases hadj : G.Adj (σ ⟨i, hi⟩) (σ ⟨j, hj⟩)
    · rw [h.of_adj _ _ hadj]; simp [hadj]
    · rw [h.of_not_adj hne hadj]; simp [hadj]

/-- **C01.**  For every strongly regular graph with parameters `(v, k, l, u)`, `3 ≤ v ≤ 66`, the
search started from the seed of these parameters returns the adjacency matrix of an isomorphic
graph.  (If `k = 0` the parameter `l` is meaningless for a graph, but the seed uses it; then `l`
must be given as 0.) -/
theorem C01_complete (G : SimpleGraph V) [DecidableRel G.Adj] {v k l u : ℕ}
    (h : G.IsSRGWith v k l u) (hv : 3 ≤ v) (hv' : v ≤ 66) (hkl : 0 < k ∨ l = 0) :
    ∃ s out, seed v k l u = .ok s ∧ solve s = .ok out ∧
      ∃ m ∈ out, ∃ e : V ≃ Fin v, ∀ a b, G.Adj a b ↔ Spec.ent m (e a) (e b) = 1 := by
  have σ : Fin v ≃ V := (Fintype.equivFinOfCardEq h.card).symm
  have ha := arr_of_srg h σ
  obtain ⟨out, hs, M', ⟨τ, hτ, hM⟩, hm⟩ := solve_found ha hv hv' (by omega)
  refine ⟨_, out, seed_eq (by omega) k l u, hs, _, hm, ?_⟩
  have hτ' : ∀ n, τ.symm n < v ↔ n < v := by
    intro n
    rw [← hτ (τ.symm n), Equiv.apply_symm_apply]
  let p : Fin v ≃ Fin v :=
    { toFun := fun i => ⟨τ.symm i, (hτ' i).2 i.2⟩
      invFun := fun i => ⟨τ i, (hτ i).2 i.2⟩
      left_inv := fun i => by simp
      right_inv := fun i => by simp }
  refine ⟨σ.symm.trans p, ?_⟩
  intro a b
  have hp : ∀ x, (((σ.symm.trans p) x : Fin v) : ℕ) = τ.symm (σ.symm x : Fin v) := fun x => rfl
  unfold Spec.ent
  rw [matOf_getD ((σ.symm.trans p) a).2, rowAt_getD ((σ.symm.trans p) b).2, hM, hp, hp,
    Equiv.apply_symm_apply, Equiv.apply_symm_apply, arrayOf_fin, Equiv.apply_symm_apply,
    Equiv.apply_symm_apply]
  by_cases hab : G.Adj a b <;> simp [hab]

/-- **C01**, contrapositive: an empty result proves that no graph exists. -/
theorem C01_nonexistence {v k l u : ℕ} (hv : 3 ≤ v) (hv' : v ≤ 66) (hkl : 0 < k ∨ l = 0)
    {s : Mat} (hs : seed v k l u = .ok s) (hout : solve s = .ok []) (G : SimpleGraph V)
    [DecidableRel G.Adj] : ¬ G.IsSRGWith v k l u := by
  intro h
  obtain ⟨s', out, h1, h2, m, hm, -⟩ := C01_complete G h hv hv' hkl
  rw [hs] at h1
  cases h1
  rw [hout] at h2
  cases h2
  simp at hm

/-- The empty graph on `v` vertices is strongly regular with `k = 0` and any `l`, but the seed for
`(5, 0, 1, 0)` is not empty, and nothing is found: the side condition of `C01_complete` is needed. -/
theorem C01_side_condition_needed :
    (⊥ : SimpleGraph (Fin 5)).IsSRGWith 5 0 1 0 ∧
      ∃ s, seed 5 0 1 0 = .ok s ∧ solve s = .ok [] := by
  refine ⟨?_, ?_⟩
  · have := SimpleGraph.bot_strongly_regular (V := Fin 5) (ℓ := 1)
    simpa using this
  · exact ⟨_, rfl, by decide +kernel⟩

/-- Non-vacuity: the pentagon is strongly regular with parameters `(5, 2, 0, 1)`. -/
example : (SimpleGraph.fromRel (fun i j : Fin 5 => j = i + 1)).IsSRGWith 5 2 0 1 := by
  refine ⟨by decide, by unfold SimpleGraph.IsRegularOfDegree; decide, by decide, ?_⟩
  unfold Pairwise
  decide

/-- The search on these parameters returns the pentagon. -/
example : ∃ s, seed 5 2 0 1 = .ok s ∧ solve s = .ok
    [[[0, 1, 1, 0, 0], [1, 0, 0, 1, 0], [1, 0, 0, 0, 1], [0, 1, 0, 0, 1], [0, 0, 1, 1, 0]]] :=
  ⟨_, rfl, by decide +kernel⟩

/-- Non-vacuity of the contrapositive: there is no graph with parameters `(7, 3, 0, 2)`. -/
example : ∃ s, seed 7 3 0 2 = .ok s ∧ solve s = .ok [] := ⟨_, rfl, by decide +kernel⟩

end TDS
