import Verif.Props.Classify
import Verif.Props.Utils
import Verif.Proof.Number

/-! C71: searching with the parameters of the complement finds the complements. -/

namespace Spec

/-- `c` is the complement of the 0/1 matrix `m`. -/
def Complements (v : Nat) (m c : Matrix) : Prop :=
  ∀ i j : Fin v, ent c i j = if i = j then 0 else 1 - ent m i j

end Spec

namespace TDS

open Spec Database

theorem complements_iff {v : Nat} {k l u : Int} {m c : Mat} (hv : 0 < v) (h : IsSRG v k l u m)
    (hc : Utils.complement m = .ok c) : Complements v m c := by
  obtain ⟨hs, hb, hd, -⟩ := isSRG_iff.1 h
  obtain ⟨c', h1, -, h3⟩ := complement_spec hs hv (fun i hi j hj => hb ⟨i, hi⟩ ⟨j, hj⟩)
  rw [hc] at h1
  cases h1
  intro i j
  rw [h3 i i.2 j j.2]
  by_cases e : i = j
  · subst e
    rw [if_pos rfl, if_pos rfl, hd]
    rfl
  · rw [if_neg e, if_neg (fun h => e (Fin.ext h))]
    omega

theorem complements_relabel {v : Nat} {m m' c c' : Mat} (h : Complements v m c)
    (h' : Complements v m' c') (hr : Relabels v m m') : Relabels v c c' := by
  obtain ⟨σ, hσ⟩ := hr
  refine ⟨σ, fun i j => ?_⟩
  rw [h', h, hσ]
  simp only [σ.injective.eq_iff]

theorem complements_symm {v : Nat} {m c : Mat} (h : Complements v m c)
    (hd : ∀ i : Fin v, ent m i i = 0) : Complements v c m := by
  intro i j
  rw [h]
  by_cases e : i = j
  · subst e; rw [if_pos rfl, hd]
  · rw [if_neg e, if_neg e]; omega

/-- **C71.**  The complement of a strongly regular matrix, renumbered, is among the results of the
search with the parameters of the complement. -/
theorem C71_found {v : Nat} {k l u : Int} {k' l' u' : Nat} {m : Mat} (hv : 3 ≤ v) (hv' : v ≤ 66)
    (h : IsSRG v k l u m) (hp : Utils.complementVklu v k l u = ((v : Int), (k' : Int), (l' : Int), (u' : Int)))
    (hk : k + 1 < v) {out : List Mat} (ho : IsOutput v k' l' u' out) :
    ∃ c m', Utils.complement m = .ok c ∧ m' ∈ out ∧ IsSRG v k' l' u' m' ∧ Relabels v c m' := by
  obtain ⟨c, k₁, l₁, u₁, h1, h2, h3⟩ := C29_complement (by omega) h
  rw [hp] at h2
  simp only [Prod.mk.injEq, true_and] at h2
  obtain ⟨rfl, rfl, rfl⟩ := h2
  have hk' : 0 < k' := by
    simp only [Utils.complementVklu, Prod.mk.injEq, true_and] at hp
    omega
  obtain ⟨s, out', hs, ho', m', hm', hd⟩ := C01_complete (graphOf v c) (graphOf_srg h3) hv hv' (Or.inl hk')
  obtain ⟨s₁, g1, g2⟩ := id ho
  rw [hs] at g1
  cases g1
  rw [ho'] at g2
  cases g2
  obtain ⟨q1, q2⟩ := C03_shape hv hv' ho m' hm'
  have hsq : Square v m' := ⟨q2, q1.rect⟩
  have hrel : Relabels v c m' := Depicts.relabels (graphOf_depicts h3) hd (isSRG_iff.1 h3).2.1
    (fun i j => (bin_iff hsq).1 q1.bin i i.2 j j.2)
  exact ⟨c, m', h1, hm', isSRG_relabel h3 hsq hrel, hrel⟩

/-- Non-vacuity: two triangles, and the result of the search for their complement. -/
example : Utils.complementVklu 6 2 1 0 = (6, 3, 0, 3) ∧
    IsOutput 6 2 1 0 [[[0, 1, 1, 0, 0, 0], [1, 0, 1, 0, 0, 0], [1, 1, 0, 0, 0, 0],
      [0, 0, 0, 0, 1, 1], [0, 0, 0, 1, 0, 1], [0, 0, 0, 1, 1, 0]]] ∧
    IsOutput 6 3 0 3 [[[0, 1, 1, 1, 0, 0], [1, 0, 0, 0, 1, 1], [1, 0, 0, 0, 1, 1],
      [1, 0, 0, 0, 1, 1], [0, 1, 1, 1, 0, 0], [0, 1, 1, 1, 0, 0]]] := by
  refine ⟨by decide, ⟨[[0, 1, 1, 0, 0, 0], [1, 0, 1, 0, 0, 0]], ?_, ?_⟩,
    ⟨[[0, 1, 1, 1, 0, 0], [1, 0, 0, 0, 1, 1]], ?_, ?_⟩⟩ <;> decide +kernel

/-- **C71.**  Two strongly regular matrices are renumberings of each other exactly if their complements
are. -/
theorem C71_relabels {v : Nat} {k l u : Int} {m₁ m₂ c₁ c₂ : Mat} (hv : 0 < v) (h₁ : IsSRG v k l u m₁)
    (h₂ : IsSRG v k l u m₂) (hc₁ : Utils.complement m₁ = .ok c₁) (hc₂ : Utils.complement m₂ = .ok c₂) :
    Relabels v m₁ m₂ ↔ Relabels v c₁ c₂ := by
  have a := complements_iff hv h₁ hc₁
  have b := complements_iff hv h₂ hc₂
  exact ⟨complements_relabel a b, complements_relabel (complements_symm a (isSRG_iff.1 h₁).2.2.1)
    (complements_symm b (isSRG_iff.1 h₂).2.2.1)⟩

/-- **C71.**  Hence the strongly regular results of the two searches correspond up to renumbering. -/
theorem C71_correspond {v k l u k' l' u' : Nat} (hv : 3 ≤ v) (hv' : v ≤ 66)
    (hp : Utils.complementVklu v k l u = ((v : Int), (k' : Int), (l' : Int), (u' : Int)))
    (hk : 0 < k) (hk' : 0 < k') {out out' : List Mat} (ho : IsOutput v k l u out)
    (ho' : IsOutput v k' l' u' out') :
    (∀ m ∈ out, IsSRG v k l u m → ∃ m' ∈ out', IsSRG v k' l' u' m' ∧
      ∃ c, Utils.complement m = .ok c ∧ Relabels v c m') ∧
    (∀ m' ∈ out', IsSRG v k' l' u' m' → ∃ m ∈ out, IsSRG v k l u m ∧
      ∃ c, Utils.complement m = .ok c ∧ Relabels v c m') := by
  have hp' : Utils.complementVklu v k' l' u' = ((v : Int), (k : Int), (l : Int), (u : Int)) := by
    have := C30_params v k l u
    rwa [hp] at this
  have e := hp
  simp only [Utils.complementVklu, Prod.mk.injEq, true_and] at e
  refine ⟨fun m _ h => ?_, fun m' _ h => ?_⟩
  · obtain ⟨c, m', h1, h2, h3, h4⟩ := C71_found hv hv' h hp (by omega) ho'
    exact ⟨m', h2, h3, c, h1, h4⟩
  · obtain ⟨c, m, h1, h2, h3, h4⟩ := C71_found hv hv' h hp' (by omega) ho
    obtain ⟨d, -, -, -, h5, -, -⟩ := C29_complement (by omega) h3
    refine ⟨m, h2, h3, d, h5, ?_⟩
    have a := complements_iff (by omega) h h1
    have b := complements_iff (by omega) h3 h5
    exact relabels_symm (complements_relabel (complements_symm a (isSRG_iff.1 h).2.2.1) b h4)

theorem Complete.lift.{w} {v k l u : Nat} {L : List Mat} (h : Complete.{0} v k l u L)
    (hL : ∀ m ∈ L, IsSRG v k l u m) : Complete.{w} v k l u L := by
  intro V _ _ G _ hG
  have σ : Fin v ≃ V := (Fintype.equivFinOfCardEq hG.card).symm
  obtain ⟨m, hm, hr⟩ := Complete.relabels h hL (isSRG_matrixOf hG σ)
  exact ⟨m, hm, Depicts.relabel (depicts_matrixOf G σ) hr⟩

/-- **C71.**  There are as many strongly regular graphs with the parameters of the complement. -/
theorem C71_classified.{w} {v k l u k' l' u' n : Nat} (h : Classified.{0} v k l u n)
    (hv : 0 < v)
    (hp : Utils.complementVklu v k l u = ((v : Int), (k' : Int), (l' : Int), (u' : Int))) :
    Classified.{w} v k' l' u' n := by
  obtain ⟨reps, h1, h2, h3, h4⟩ := h
  have hp' : Utils.complementVklu v k' l' u' = ((v : Int), (k : Int), (l : Int), (u : Int)) := by
    have := C30_params v k l u
    rwa [hp] at this
  have key : ∀ {k l u k' l' u' : Nat} {m : Mat}, IsSRG v k l u m →
      Utils.complementVklu v k l u = ((v : Int), (k' : Int), (l' : Int), (u' : Int)) →
      ∃ c, Utils.complement m = .ok c ∧ IsSRG v k' l' u' c := by
    intro k l u k' l' u' m hm hp
    obtain ⟨c, k₁, l₁, u₁, g1, g2, g3⟩ := C29_complement hv hm
    rw [hp] at g2
    simp only [Prod.mk.injEq, true_and] at g2
    obtain ⟨rfl, rfl, rfl⟩ := g2
    exact ⟨c, g1, g3⟩
  let f : Mat → Mat := fun m => match Utils.complement m with
    | .ok c => c
    | .error _ => []
  have hf : ∀ m ∈ reps, Utils.complement m = .ok (f m) ∧ IsSRG v k' l' u' (f m) := by
    intro m hm
    obtain ⟨c, g1, g2⟩ := key (h2 m hm) hp
    have : f m = c := by simp only [f, g1]
    rw [this]
    exact ⟨g1, g2⟩
  have hsrg : ∀ m ∈ reps.map f, IsSRG v k' l' u' m := by
    intro m' hm'
    obtain ⟨m, hm, rfl⟩ := List.mem_map.1 hm'
    exact (hf m hm).2
  refine ⟨reps.map f, by rw [List.length_map, h1], hsrg, ?_, Complete.lift ?_ hsrg⟩
  · rw [List.pairwise_map]
    refine List.Pairwise.imp_of_mem (fun {a b} ha hb hab hr => hab ?_) h3
    exact (C71_relabels hv (h2 a ha) (h2 b hb) (hf a ha).1 (hf b hb).1).2 hr
  · intro V _ _ G _ hG
    have σ : Fin v ≃ V := (Fintype.equivFinOfCardEq hG.card).symm
    have hM := isSRG_matrixOf hG σ
    obtain ⟨c, g1, g2⟩ := key hM hp'
    obtain ⟨m, hm, hr⟩ := Complete.relabels h4 h2 g2
    refine ⟨f m, List.mem_map_of_mem hm, Depicts.relabel (depicts_matrixOf G σ) ?_⟩
    have a := complements_iff hv (h2 m hm) (hf m hm).1
    have b := complements_symm (complements_iff hv hM g1) (isSRG_iff.1 hM).2.2.1
    exact complements_relabel a b hr

/-- Parameters without a stored list whose complements have one, with the number of graphs. -/
def complNumbers : List (Nat × Nat × Nat × Nat × Nat) :=
  [(4, 1, 0, 0, 1), (12, 5, 4, 0, 1), (21, 10, 3, 6, 1), (25, 16, 9, 12, 1), (27, 16, 10, 8, 1),
   (28, 15, 6, 10, 4)]

/-- **C71.**  The number of strongly regular graphs for these parameters, from the stored lists. -/
theorem C71_numbers.{w} : ∀ p ∈ complNumbers,
    Classified.{w} p.1 p.2.1 p.2.2.1 p.2.2.2.1 p.2.2.2.2 := by
  have key : ∀ p ∈ complNumbers, ∃ k l u, (p.1, k, l, u, p.2.2.2.2) ∈ TDS.numbers ∧ 0 < p.1 ∧
      Utils.complementVklu p.1 (k : Nat) (l : Nat) (u : Nat) =
        ((p.1 : Int), (p.2.1 : Int), (p.2.2.1 : Int), (p.2.2.2.1 : Int)) := by
    unfold complNumbers
    simp only [List.forall_mem_cons]
    exact ⟨⟨2, 0, 2, by decide, by decide, by decide⟩, ⟨6, 0, 6, by decide, by decide, by decide⟩,
      ⟨10, 5, 4, by decide, by decide, by decide⟩, ⟨8, 3, 2, by decide, by decide, by decide⟩,
      ⟨10, 1, 5, by decide, by decide, by decide⟩, ⟨12, 6, 4, by decide, by decide, by decide⟩,
      by simp⟩
  intro p hp
  obtain ⟨k, l, u, h1, h2, h3⟩ := key p hp
  exact C71_classified (C46_classified (p.1, k, l, u, p.2.2.2.2) h1) h2 h3

/-- **C71.**  None of these parameters has a stored list. -/
theorem C71_not_stored : ∀ p ∈ complNumbers,
    ¬ ∃ sols, getSolutions modules p.1 p.2.1 p.2.2.1 p.2.2.2.1 = .ok sols := by
  rintro p hp ⟨sols, h⟩
  have key : ∀ p ∈ complNumbers, ∀ e ∈ entries,
      (e.v, e.k, e.l, e.u) ≠ (p.1, p.2.1, p.2.2.1, p.2.2.2.1) := by decide +kernel
  obtain ⟨name, rows, he, -⟩ := get_entry h
  exact key p hp _ he rfl

end TDS
