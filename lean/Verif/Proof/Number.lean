import Verif.Proof.Canon
import Verif.Proof.Limit
import Verif.SpecN
import Verif.Props.C01
import Verif.Props.Exact
import Mathlib.Data.Fintype.Sum

/-! Numberings of a strongly regular graph that begin with a given clique. -/

namespace TDS

open Finset

/-- Adjacent vertices have fewer than `k` common neighbours. -/
theorem Arr.common_lt {v : Nat} {k l u : Int} {M : Nat → Nat → Int} (h : Arr v k l u M) (hv : 0 < v)
    (hk : 0 < k) : l < k := by
  obtain ⟨t, ht, h1⟩ : ∃ t < v, M 0 t = 1 := by
    by_contra hno
    push Not at hno
    have := h.deg 0 hv
    rw [Finset.sum_eq_zero (fun t ht => (h.bin 0 t).resolve_right
      (hno t (Finset.mem_range.1 ht)))] at this
    omega
  have hne : 0 ≠ t := by
    rintro rfl
    rw [h.diag 0 hv] at h1
    omega
  have hi := h.inter 0 hv t ht hne
  rw [if_pos h1] at hi
  rw [← hi, ← h.deg 0 hv]
  refine Finset.sum_lt_sum (fun s _ => ?_) ⟨t, Finset.mem_range.2 ht, ?_⟩
  · have := h.nonneg 0 s
    have := h.le_one t s
    nlinarith
  · rw [h.diag t ht, h1]
    decide

/-- `M'` is `M` with the indices from `c` up to `v` permuted. -/
def RelFix (v c : Nat) (M M' : Nat → Nat → Int) : Prop :=
  ∃ σ : Equiv.Perm ℕ, (∀ n, σ n < v ↔ n < v) ∧ (∀ n < c, σ n = n) ∧
    ∀ i j, M' i j = M (σ i) (σ j)

theorem RelFix.refl (v c : Nat) (M : Nat → Nat → Int) : RelFix v c M M :=
  ⟨Equiv.refl ℕ, fun _ => Iff.rfl, fun _ _ => rfl, fun _ _ => rfl⟩

theorem RelFix.trans {v c : Nat} {M M' M'' : Nat → Nat → Int} (h : RelFix v c M M')
    (h' : RelFix v c M' M'') : RelFix v c M M'' := by
  obtain ⟨σ, h1, h2, h3⟩ := h
  obtain ⟨τ, h4, h5, h6⟩ := h'
  refine ⟨τ.trans σ, fun n => ?_, fun n hn => ?_, fun i j => ?_⟩
  · simp only [Equiv.trans_apply, h1, h4]
  · rw [Equiv.trans_apply, h5 n hn, h2 n hn]
  · rw [h6, h3]; rfl

theorem RelFix.rel {v c : Nat} {M M' : Nat → Nat → Int} (h : RelFix v c M M') : Rel v M M' := by
  obtain ⟨σ, h1, -, h3⟩ := h
  exact ⟨σ, h1, h3⟩

theorem swap_relFix {v c : Nat} {i j : Nat} (hi : i < v) (hj : j < v)
    (hc : ∀ n < c, Equiv.swap i j n = n) (M : Nat → Nat → Int) :
    RelFix v c M (fun a b => M (Equiv.swap i j a) (Equiv.swap i j b)) := by
  refine ⟨Equiv.swap i j, fun n => ?_, hc, fun _ _ => rfl⟩
  by_cases h1 : n = i
  · subst h1; simp [hi, hj]
  · by_cases h2 : n = j
    · subst h2; simp [hi, hj]
    · rw [Equiv.swap_apply_of_ne_of_ne h1 h2]

/-- Sorting row `R` inside the classes of equal columns moves no column that has a one there and
only such columns before it. -/
theorem exists_leftJustified_fix {v c : Nat} {k l u : Int} {R : Nat} :
    ∀ (n : Nat) (M : Nat → Nat → Int), Arr v k l u M → (∀ t < c, t ≤ R ∨ M R t = 1) →
      (∑ t ∈ range v, (t : Int) * M R t) ≤ n →
      ∃ M', RelFix v c M M' ∧ matOf v M' R = matOf v M R ∧
        Spec.LeftJustified v (matOf v M' R) (rowAt v M' R) := by
  intro n
  induction n using Nat.strong_induction_on with
  | _ n ih =>
    intro M ha hc hn
    by_cases hlj : Spec.LeftJustified v (matOf v M R) (rowAt v M R)
    · exact ⟨M, RelFix.refl v c M, rfl, hlj⟩
    · unfold Spec.LeftJustified at hlj
      push Not at hlj
      obtain ⟨i, j, hi, hij, hj, he, hlt⟩ := hlj
      rw [matOf_length] at hi
      rw [rowAt_getD (by omega), rowAt_getD hj] at hlt
      rw [colEq_matOf (by omega) hj] at he
      have hMi : M R i = 0 := by
        rcases ha.bin R i with h | h
        · exact h
        · rcases ha.bin R j with h' | h' <;> omega
      have hMj : M R j = 1 := by
        rcases ha.bin R j with h' | h' <;> omega
      set M' : Nat → Nat → Int := fun a b => M (Equiv.swap i j a) (Equiv.swap i j b) with hM'
      have hrel := swap_rel (v := v) (i := i) (j := j) (by omega) hj M
      have hcs : ∀ t < c, Equiv.swap i j t = t := by
        intro t ht
        have hic : ¬ i < c := by
          intro hic
          rcases hc i hic with h | h <;> omega
        exact Equiv.swap_apply_of_ne_of_ne (by omega) (by omega)
      have hsR : Equiv.swap i j R = R := Equiv.swap_apply_of_ne_of_ne (by omega) (by omega)
      have hw : (∑ t ∈ range v, (t : Int) * M' R t) =
          (∑ t ∈ range v, (t : Int) * M R t) - ((j : Int) - i) := by
        have hσ : ∀ n, Equiv.swap i j n < v ↔ n < v := by
          intro n
          by_cases h1 : n = i
          · subst h1; simp [hj]; omega
          · by_cases h2 : n = j
            · subst h2; simp [hj]; omega
            · rw [Equiv.swap_apply_of_ne_of_ne h1 h2]
        have e1 : (∑ t ∈ range v, (t : Int) * M' R t) =
            ∑ t ∈ range v, ((Equiv.swap i j t : Nat) : Int) * M R t := by
          rw [← sum_perm hσ (fun t => ((Equiv.swap i j t : Nat) : Int) * M R t)]
          apply Finset.sum_congr rfl
          intro t _
          simp only [hM', hsR, Equiv.swap_apply_self]
        have e2 : (∑ t ∈ range v, (t : Int) * M R t) -
            (∑ t ∈ range v, ((Equiv.swap i j t : Nat) : Int) * M R t) = (j : Int) - i := by
          rw [← Finset.sum_sub_distrib]
          rw [Finset.sum_eq_single j]
          · simp [hMj]
          · intro t _ ht
            by_cases h1 : t = i
            · subst h1; simp [hMi]
            · rw [Equiv.swap_apply_of_ne_of_ne h1 ht]; ring
          · intro h; exact absurd (Finset.mem_range.2 hj) h
        omega
      have hnn : 0 ≤ ∑ t ∈ range v, (t : Int) * M' R t := by
        apply Finset.sum_nonneg
        intro t _
        have hb : M' R t = 0 ∨ M' R t = 1 := (hrel.arr ha).bin R t
        rcases hb with h | h <;> rw [h] <;> simp
      have hmat : matOf v M' R = matOf v M R := by
        unfold matOf
        apply List.map_congr_left
        intro r hr
        rw [List.mem_range] at hr
        apply List.map_congr_left
        intro t _
        show M (Equiv.swap i j r) (Equiv.swap i j t) = M r t
        rw [Equiv.swap_apply_of_ne_of_ne (show r ≠ i by omega) (by omega)]
        by_cases h1 : t = i
        · subst h1; rw [Equiv.swap_apply_left]; exact (he r hr).symm
        · by_cases h2 : t = j
          · subst h2; rw [Equiv.swap_apply_right]; exact he r hr
          · rw [Equiv.swap_apply_of_ne_of_ne h1 h2]
      obtain ⟨M'', h1, h2, h3⟩ := ih (∑ t ∈ range v, (t : Int) * M' R t).toNat (by omega) M'
        (hrel.arr ha) (by
          intro t ht
          rcases hc t ht with h | h
          · exact Or.inl h
          · right
            show M (Equiv.swap i j R) (Equiv.swap i j t) = 1
            rw [hsR, hcs t ht, h]) (by omega)
      exact ⟨M'', (swap_relFix (by omega) hj hcs M).trans h1, by rw [h2, hmat], h3⟩

/-- Relabelling so that all rows are justified, leaving a clique at the beginning in place. -/
theorem exists_canon_fix {v c : Nat} {k l u : Int} {M : Nat → Nat → Int} (h : Arr v k l u M)
    (hc : ∀ i < c, ∀ j < c, i ≠ j → M i j = 1) :
    ∀ n, n ≤ v → ∃ M', RelFix v c M M' ∧
      ∀ R < n, Spec.LeftJustified v (matOf v M' R) (rowAt v M' R)
  | 0, _ => ⟨M, RelFix.refl v c M, fun _ h => absurd h (Nat.not_lt_zero _)⟩
  | n + 1, hn => by
    obtain ⟨M1, r1, j1⟩ := exists_canon_fix h hc n (by omega)
    obtain ⟨M2, r2, e2, j2⟩ := exists_leftJustified_fix (R := n) (c := c)
      (∑ t ∈ range v, (t : Int) * M1 n t).toNat M1 (r1.rel.arr h) (by
        intro t ht
        by_cases hn' : t ≤ n
        · exact Or.inl hn'
        · right
          obtain ⟨σ, -, hσ, hM⟩ := r1
          rw [hM, hσ t ht, hσ n (by omega)]
          exact hc n (by omega) t ht (by omega)) (by omega)
    have hrow : ∀ R < n, rowAt v M2 R = rowAt v M1 R := by
      intro R hR
      have : (matOf v M2 n).getD R [] = (matOf v M1 n).getD R [] := by rw [e2]
      rwa [matOf_getD hR, matOf_getD hR] at this
    refine ⟨M2, r1.trans r2, ?_⟩
    intro R hR
    rcases Nat.lt_succ_iff_lt_or_eq.1 hR with hR | rfl
    · have : matOf v M2 R = matOf v M1 R := by
        show (List.range R).map (rowAt v M2) = (List.range R).map (rowAt v M1)
        apply List.map_congr_left
        intro i hi
        rw [List.mem_range] at hi
        exact hrow i (by omega)
      rw [this, hrow R hR]
      exact j1 R hR
    · exact j2

section

variable {V : Type*} [Fintype V] [DecidableEq V]

theorem matrixOf_eq (G : SimpleGraph V) [DecidableRel G.Adj] {v : ℕ} (σ : Fin v ≃ V) :
    Spec.matrixOf G σ = matOf v (arrayOf G σ) v := by
  have hr : List.range v = (List.finRange v).map Fin.val := List.map_coe_finRange_eq_range.symm
  unfold Spec.matrixOf matOf
  rw [hr, List.map_map]
  apply List.map_congr_left
  intro i _
  simp only [Function.comp, List.map_map]
  apply List.map_congr_left
  intro j _
  exact (arrayOf_fin G σ i j).symm

theorem ent_matrixOf (G : SimpleGraph V) [DecidableRel G.Adj] {v : ℕ} (σ : Fin v ≃ V)
    (i j : Fin v) : Spec.ent (Spec.matrixOf G σ) i j = if G.Adj (σ i) (σ j) then 1 else 0 := by
  rw [matrixOf_eq, ent_matOf i.2 j.2, arrayOf_fin]

theorem isSRG_matrixOf {G : SimpleGraph V} [DecidableRel G.Adj] {v k l u : ℕ}
    (h : G.IsSRGWith v k l u) (σ : Fin v ≃ V) : Spec.IsSRG v k l u (Spec.matrixOf G σ) := by
  rw [matrixOf_eq]
  exact isSRG_of_arr (arr_of_srg h σ)

theorem depicts_matrixOf (G : SimpleGraph V) [DecidableRel G.Adj] {v : ℕ} (σ : Fin v ≃ V) :
    Spec.Depicts v (Spec.matrixOf G σ) G := by
  refine ⟨σ.symm, fun a b => ?_⟩
  rw [ent_matrixOf, Equiv.apply_symm_apply, Equiv.apply_symm_apply]
  by_cases h : G.Adj a b <;> simp [h]

/-- Two numberings give the same matrix exactly when they differ by an automorphism. -/
theorem matrixOf_eq_iff (G : SimpleGraph V) [DecidableRel G.Adj] {v : ℕ} (σ τ : Fin v ≃ V) :
    Spec.matrixOf G σ = Spec.matrixOf G τ ↔ ∃ g : G ≃g G, σ.trans g.toEquiv = τ := by
  constructor
  · intro h
    have hadj : ∀ i j, G.Adj (τ i) (τ j) ↔ G.Adj (σ i) (σ j) := by
      intro i j
      have e := congrArg (fun m => Spec.ent m i j) h
      simp only [ent_matrixOf] at e
      by_cases h1 : G.Adj (σ i) (σ j) <;> by_cases h2 : G.Adj (τ i) (τ j) <;> simp_all
    refine ⟨⟨σ.symm.trans τ, ?_⟩, ?_⟩
    · intro a b
      have := hadj (σ.symm a) (σ.symm b)
      simpa using this
    · ext i
      simp
  · rintro ⟨g, rfl⟩
    unfold Spec.matrixOf
    apply List.map_congr_left
    intro i _
    apply List.map_congr_left
    intro j _
    have : G.Adj (g (σ i)) (g (σ j)) ↔ G.Adj (σ i) (σ j) := g.map_rel_iff
    simp [this]

/-- A depicted graph has a numbering with that very matrix. -/
theorem exists_numbering {G : SimpleGraph V} [DecidableRel G.Adj] {v : ℕ} {m : Mat}
    (hm : Spec.IsAdj v m) (h : Spec.Depicts v m G) : ∃ σ : Fin v ≃ V,
      Spec.matrixOf G σ = m := by
  obtain ⟨e, he⟩ := h
  refine ⟨e.symm, ?_⟩
  have hs : Spec.Square v m := ⟨hm.square, hm.part.rect⟩
  rw [matrixOf_eq]
  refine square_ext (matOf_square v _) hs (fun i hi j hj => ?_)
  rw [ent_matOf hi hj]
  have := arrayOf_fin G e.symm ⟨i, hi⟩ ⟨j, hj⟩
  simp only at this
  have hiff : G.Adj (e.symm ⟨i, hi⟩) (e.symm ⟨j, hj⟩) ↔ Spec.ent m i j = 1 := by
    rw [he, Equiv.apply_symm_apply, Equiv.apply_symm_apply]
  rw [this]
  rcases (bin_iff hs).1 hm.part.bin i hi j hj with h | h <;> simp [hiff, h]

/-- A numbering that begins with a given sequence of distinct vertices. -/
theorem exists_start {v c : ℕ} (hcard : Fintype.card V = v) {x : Fin c → V}
    (hx : Function.Injective x) :
    ∃ σ : Fin v ≃ V, ∀ i : Fin c, ∃ h : (i : ℕ) < v, σ ⟨i, h⟩ = x i := by
  have hcv : c ≤ v := by
    have := Fintype.card_le_of_injective x hx
    rw [Fintype.card_fin, hcard] at this
    exact this
  have σ₀ : Fin v ≃ V := (Fintype.equivFinOfCardEq hcard).symm
  let f : Fin v → V := fun i => if h : (i : ℕ) < c then x ⟨i, h⟩ else σ₀ i
  obtain ⟨g, hg⟩ := Finset.exists_equiv_extend_of_card_eq (α := Fin v) (β := V) (t := univ)
    (s := univ.filter (fun i : Fin v => (i : ℕ) < c)) (f := f) (by simp [hcard]) (by simp) (by
      intro i hi j hj hij
      simp only [coe_filter, mem_univ, true_and, Set.mem_ofPred_eq] at hi hj
      simp only [f, dif_pos hi, dif_pos hj] at hij
      have := hx hij
      rw [Fin.mk.injEq] at this
      exact Fin.ext this)
  refine ⟨g.trans (Equiv.subtypeUnivEquiv (fun a => mem_univ a)), fun i => ⟨by omega, ?_⟩⟩
  have := hg ⟨i, by omega⟩ (by simp)
  simp only [f, dif_pos i.2] at this
  exact this

/-- **Every ordered clique begins some justified numbering.** -/
theorem exists_justified {G : SimpleGraph V} [DecidableRel G.Adj] {v k l u c : ℕ}
    (h : G.IsSRGWith v k l u) {x : Fin c → V} (hx : Spec.OrderedClique G x) :
    ∃ σ : Fin v ≃ V, Spec.Justified v (Spec.matrixOf G σ) ∧
      ∀ i : Fin c, ∃ h : (i : ℕ) < v, σ ⟨i, h⟩ = x i := by
  have hinj : Function.Injective x := by
    intro i j hij
    by_contra hne
    exact (hx i j hne).ne hij
  obtain ⟨σ, hσ⟩ := exists_start h.card hinj
  have hclq : ∀ i < c, ∀ j < c, i ≠ j → arrayOf G σ i j = 1 := by
    intro i hi j hj hij
    obtain ⟨h1, e1⟩ := hσ ⟨i, hi⟩
    obtain ⟨h2, e2⟩ := hσ ⟨j, hj⟩
    have := arrayOf_fin G σ ⟨i, h1⟩ ⟨j, h2⟩
    simp only at this e1 e2
    rw [this, e1, e2, if_pos (hx _ _ (by simpa using hij))]
  obtain ⟨M', ⟨τ, hτ, hfix, hM⟩, hj⟩ := exists_canon_fix (arr_of_srg h σ) hclq v le_rfl
  have hτ' : ∀ n, τ.symm n < v ↔ n < v := by
    intro n
    rw [← hτ (τ.symm n), Equiv.apply_symm_apply]
  let p : Fin v ≃ Fin v :=
    { toFun := fun i => ⟨τ i, (hτ i).2 i.2⟩
      invFun := fun i => ⟨τ.symm i, (hτ' i).2 i.2⟩
      left_inv := fun i => by simp
      right_inv := fun i => by simp }
  have hp : Spec.matrixOf G (p.trans σ) = matOf v M' v := by
    rw [matrixOf_eq]
    refine square_ext (matOf_square v _) (matOf_square v _) (fun i hi j hj => ?_)
    rw [ent_matOf hi hj, ent_matOf hi hj, hM]
    have e1 := arrayOf_fin G (p.trans σ) ⟨i, hi⟩ ⟨j, hj⟩
    have e2 := arrayOf_fin G σ (p ⟨i, hi⟩) (p ⟨j, hj⟩)
    exact e1.trans e2.symm
  refine ⟨p.trans σ, ?_, fun i => ?_⟩
  · rw [hp]
    intro R hR
    rw [matOf_take hR.le, matOf_getD hR]
    exact hj R hR
  · obtain ⟨h1, e1⟩ := hσ i
    refine ⟨h1, ?_⟩
    have : p ⟨i, h1⟩ = ⟨i, h1⟩ := Fin.ext (hfix i i.2)
    rw [Equiv.trans_apply, this, e1]

end

end TDS
