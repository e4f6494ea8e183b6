import Verif.Proof.Number
import Verif.Props.Search
import Mathlib.SetTheory.Cardinal.Finite
import Mathlib.Data.Fintype.Perm

/-! C64: how often the search finds the same graph. -/

namespace TDS

open Finset

variable {V : Type*} [Fintype V] [DecidableEq V] {G : SimpleGraph V} [DecidableRel G.Adj]
  {v k l u : ℕ} {out : List Mat}

/-- **C64.**  The results that depict `G` are the matrices of the justified numberings of `G`. -/
theorem C64_results (h : G.IsSRGWith v k l u) (hv : 3 ≤ v) (hv' : v ≤ 66) (hkl : 0 < k ∨ l = 0)
    (ho : IsOutput v k l u out) (m : Mat) : m ∈ out ∧ Spec.Depicts v m G ↔
      ∃ σ : Fin v ≃ V, Spec.Justified v (Spec.matrixOf G σ) ∧ Spec.matrixOf G σ = m := by
  obtain ⟨σ₀⟩ : Nonempty (Fin v ≃ V) := ⟨(Fintype.equivFinOfCardEq h.card).symm⟩
  obtain ⟨h1, h2, h3⟩ := (arr_of_srg h σ₀).bounds (by omega) (by omega)
  constructor
  · rintro ⟨hm, hd⟩
    have hadj := (C03_structure hv hv' (by
      rcases hkl with hk | rfl
      · exact Or.inl ⟨h2, (arr_of_srg h σ₀).common_lt (by omega) (by omega)⟩
      · rcases Nat.eq_zero_or_pos k with rfl | hk
        · exact Or.inr ⟨rfl, rfl⟩
        · exact Or.inl ⟨h2, by simpa using hk⟩) ho m hm).1
    obtain ⟨σ, rfl⟩ := exists_numbering hadj hd
    exact ⟨σ, output_justified hv hv' h1 h2 h3 ho _ hm, rfl⟩
  · rintro ⟨σ, hj, rfl⟩
    exact ⟨(C44_exact hv hv' (by omega) ho (isSRG_matrixOf h σ)).2 hj, depicts_matrixOf G σ⟩

/-- **C64**, counted: the number of results that depict `G`, times the number of automorphisms of
`G`, is the number of justified numberings. -/
theorem C64_count (h : G.IsSRGWith v k l u) (hv : 3 ≤ v) (hv' : v ≤ 66) (hkl : 0 < k ∨ l = 0)
    (ho : IsOutput v k l u out) :
    Nat.card (Spec.Copies G v out) * Nat.card (G ≃g G) = Nat.card (Spec.Numbering G v) := by
  classical
  have hres := C64_results h hv hv' hkl ho
  choose num hj he using fun m : Spec.Copies G v out => (hres m.1).1 m.2
  rw [← Nat.card_prod]
  refine Nat.card_congr ?_
  refine Equiv.ofBijective (fun p => ⟨(num p.1).trans p.2.toEquiv, ?_⟩) ⟨?_, ?_⟩
  · rw [← (matrixOf_eq_iff G (num p.1) _).2 ⟨p.2, rfl⟩]
    exact hj p.1
  · rintro ⟨m, g⟩ ⟨m', g'⟩ e
    have e1 : (num m).trans g.toEquiv = (num m').trans g'.toEquiv := congrArg Subtype.val e
    have e2 : m = m' := by
      apply Subtype.ext
      rw [← he m, ← he m', (matrixOf_eq_iff G (num m) _).2 ⟨g, rfl⟩,
        (matrixOf_eq_iff G (num m') _).2 ⟨g', rfl⟩, e1]
    subst e2
    have e3 : g = g' := by
      apply RelIso.ext
      intro a
      have := congrArg (fun f => f ((num m).symm a)) e1
      simpa using this
    rw [e3]
  · rintro ⟨σ, hσ⟩
    have hm := (hres (Spec.matrixOf G σ)).2 ⟨σ, hσ, rfl⟩
    obtain ⟨g, hg⟩ := (matrixOf_eq_iff G (num ⟨_, hm⟩) σ).1 (he ⟨_, hm⟩)
    exact ⟨⟨⟨_, hm⟩, g⟩, Subtype.ext hg⟩

/-- **C64**, from above: the number of results that depict `G` times the number of automorphisms
is at most `v!`. -/
theorem C64_upper (h : G.IsSRGWith v k l u) (hv : 3 ≤ v) (hv' : v ≤ 66) (hkl : 0 < k ∨ l = 0)
    (ho : IsOutput v k l u out) :
    Nat.card (Spec.Copies G v out) * Nat.card (G ≃g G) ≤ v.factorial := by
  classical
  rw [C64_count h hv hv' hkl ho]
  have e := Fintype.card_equiv (Fintype.equivFinOfCardEq h.card).symm
  rw [Fintype.card_fin] at e
  rw [← e, ← Nat.card_eq_fintype_card]
  exact Nat.card_le_card_of_injective _ Subtype.val_injective

/-- **C64**, the beginnings: whatever clique is chosen in `G`, in whatever order, some result
depicts `G` with this clique at its first vertices. -/
theorem C64_cliques (h : G.IsSRGWith v k l u) (hv : 3 ≤ v) (hv' : v ≤ 66) (hkl : 0 < k ∨ l = 0)
    (ho : IsOutput v k l u out) {c : ℕ} {x : Fin c → V} (hx : Spec.OrderedClique G x) :
    ∃ m ∈ out, ∃ e : V ≃ Fin v, (∀ a b, G.Adj a b ↔ Spec.ent m (e a) (e b) = 1) ∧
      ∀ i, (e (x i) : ℕ) = i := by
  obtain ⟨σ, hj, hs⟩ := exists_justified h hx
  obtain ⟨hm, -⟩ := (C64_results h hv hv' hkl ho _).2 ⟨σ, hj, rfl⟩
  refine ⟨_, hm, σ.symm, fun a b => ?_, fun i => ?_⟩
  · rw [ent_matrixOf, Equiv.apply_symm_apply, Equiv.apply_symm_apply]
    by_cases h : G.Adj a b <;> simp [h]
  · obtain ⟨h1, e1⟩ := hs i
    rw [← e1, Equiv.symm_apply_apply]

/-- **C64**, from below: cliques that no automorphism carries into each other begin different
results, so `G` is found at least once for each of them. -/
theorem C64_lower (h : G.IsSRGWith v k l u) (hv : 3 ≤ v) (hv' : v ≤ 66) (hkl : 0 < k ∨ l = 0)
    (ho : IsOutput v k l u out) {c : ℕ} {S : Finset (Fin c → V)}
    (hS : ∀ x ∈ S, Spec.OrderedClique G x)
    (hne : ∀ x ∈ S, ∀ y ∈ S, (∃ g : G ≃g G, ∀ i, g (x i) = y i) → x = y) :
    S.card ≤ Nat.card (Spec.Copies G v out) := by
  classical
  have key : ∀ x : S, ∃ m : Spec.Copies G v out, ∃ e : V ≃ Fin v,
      (∀ a b, G.Adj a b ↔ Spec.ent m.1 (e a) (e b) = 1) ∧ ∀ i, (e (x.1 i) : ℕ) = i := by
    intro x
    obtain ⟨m, hm, e, he, hx⟩ := C64_cliques h hv hv' hkl ho (hS x.1 x.2)
    exact ⟨⟨m, hm, e, he⟩, e, he, hx⟩
  choose f e he hx using key
  have hfin : Finite (Spec.Copies G v out) :=
    (List.finite_toSet out).subset (fun m hm => hm.1) |>.to_subtype
  rw [← Fintype.card_coe, ← Nat.card_eq_fintype_card]
  refine Nat.card_le_card_of_injective f (fun x y hxy => ?_)
  apply Subtype.ext
  refine hne x.1 x.2 y.1 y.2 ⟨⟨(e x).trans (e y).symm, ?_⟩, ?_⟩
  · intro a b
    rw [he y, he x, hxy]
    simp
  · intro i
    show (e y).symm (e x (x.1 i)) = y.1 i
    rw [Equiv.symm_apply_eq]
    exact Fin.ext (by rw [hx, hx])

/-- **C64**, the extreme case: a graph that is found only once has an automorphism carrying any
ordered clique to any other of the same size. -/
theorem C64_once (h : G.IsSRGWith v k l u) (hv : 3 ≤ v) (hv' : v ≤ 66) (hkl : 0 < k ∨ l = 0)
    (ho : IsOutput v k l u out) (h1 : Nat.card (Spec.Copies G v out) = 1) {c : ℕ}
    {x y : Fin c → V} (hx : Spec.OrderedClique G x) (hy : Spec.OrderedClique G y) :
    ∃ g : G ≃g G, ∀ i, g (x i) = y i := by
  by_contra hno
  have hxy : x ≠ y := by
    rintro rfl
    exact hno ⟨RelIso.refl _, fun _ => rfl⟩
  have hno' : ¬ ∃ g : G ≃g G, ∀ i, g (y i) = x i := by
    rintro ⟨g, hg⟩
    exact hno ⟨g.symm, fun i => by rw [← hg i, RelIso.symm_apply_apply]⟩
  have := C64_lower h hv hv' hkl ho (S := {x, y}) (by
    intro z hz
    rcases Finset.mem_insert.1 hz with rfl | hz
    · exact hx
    · rwa [Finset.mem_singleton.1 hz]) (by
    intro z hz w hw hg
    rw [Finset.mem_insert, Finset.mem_singleton] at hz hw
    rcases hz with e | e <;> rcases hw with e' | e' <;> rw [e, e'] at hg ⊢
    · exact absurd hg hno
    · exact absurd hg hno')
  rw [Finset.card_pair hxy, h1] at this
  omega

/-- The pentagon. -/
abbrev fiveCycle : SimpleGraph (Fin 5) := SimpleGraph.fromRel (fun i j : Fin 5 => j = i + 1)

theorem fiveCycle_srg : fiveCycle.IsSRGWith 5 2 0 1 := by
  refine ⟨by decide, by unfold SimpleGraph.IsRegularOfDegree; decide, by decide, ?_⟩
  unfold Pairwise
  decide

theorem fiveCycle_out : IsOutput 5 2 0 1
    [[[0, 1, 1, 0, 0], [1, 0, 0, 1, 0], [1, 0, 0, 0, 1], [0, 1, 0, 0, 1], [0, 0, 1, 1, 0]]] :=
  ⟨_, rfl, by decide +kernel⟩

/-- Non-vacuity: the search finds the pentagon once. -/
theorem fiveCycle_once : Nat.card (Spec.Copies fiveCycle 5
    [[[0, 1, 1, 0, 0], [1, 0, 0, 1, 0], [1, 0, 0, 0, 1], [0, 1, 0, 0, 1], [0, 0, 1, 1, 0]]]) = 1 := by
  obtain ⟨s, out, h1, h2, m, hm, hd⟩ := C01_complete fiveCycle fiveCycle_srg (by omega) (by omega)
    (by omega)
  have e : out = [[[0, 1, 1, 0, 0], [1, 0, 0, 1, 0], [1, 0, 0, 0, 1], [0, 1, 0, 0, 1],
      [0, 0, 1, 1, 0]]] := by
    have h : IsOutput 5 2 0 1 out := ⟨s, h1, h2⟩
    rw [h.eq (by omega) (by omega), ← fiveCycle_out.eq (by omega) (by omega)]
  subst e
  rw [Nat.card_eq_one_iff_unique]
  refine ⟨⟨fun a b => Subtype.ext ?_⟩, ⟨⟨m, hm, hd⟩⟩⟩
  rw [List.mem_singleton.1 a.2.1, List.mem_singleton.1 b.2.1]

/-- Non-vacuity: so any edge of the pentagon can be carried to any other, in either direction, and
the pentagon has as many automorphisms as justified numberings. -/
example (x y : Fin 2 → Fin 5) (hx : Spec.OrderedClique fiveCycle x)
    (hy : Spec.OrderedClique fiveCycle y) : ∃ g : fiveCycle ≃g fiveCycle, ∀ i, g (x i) = y i :=
  C64_once fiveCycle_srg (by omega) (by omega) (by omega) fiveCycle_out fiveCycle_once hx hy

example : Spec.OrderedClique fiveCycle ![0, 1] ∧ Spec.OrderedClique fiveCycle ![3, 2] := by
  unfold Spec.OrderedClique
  decide

example : Nat.card (fiveCycle ≃g fiveCycle) = Nat.card (Spec.Numbering fiveCycle 5) := by
  rw [← C64_count fiveCycle_srg (by omega) (by omega) (by omega) fiveCycle_out, fiveCycle_once,
    Nat.one_mul]

end TDS
