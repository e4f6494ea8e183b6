import Verif.SpecP
import Mathlib.Combinatorics.SimpleGraph.StronglyRegular
import Mathlib.Algebra.BigOperators.Group.Finset.Basic
import Mathlib.Algebra.Order.BigOperators.Group.Finset

/-! Partial geometries give strongly regular graphs. -/

namespace TDS

open Finset

theorem commonNeighbors_card {V : Type*} [Fintype V] [DecidableEq V] (G : SimpleGraph V) [DecidableRel G.Adj]
    (a b : V) : Fintype.card (G.commonNeighbors a b) = #{c | G.Adj a c ∧ G.Adj b c} := by
  rw [← Set.toFinset_card]
  congr 1
  ext c
  simp [SimpleGraph.mem_commonNeighbors]

theorem degree_card {V : Type*} [Fintype V] (G : SimpleGraph V) [DecidableRel G.Adj] (a : V) :
    G.degree a = #{c | G.Adj a c} := by
  rw [← SimpleGraph.card_neighborFinset_eq_degree]
  congr 1
  ext c
  simp

section

variable {P L : Type*} [Fintype P] [Fintype L] [DecidableEq P] {inc : P → L → Prop} {s t α : Nat}
  (h : Spec.PartialGeometry inc s t α)

include h

open Classical in
/-- A set of points collinear with `p` is counted line by line. -/
theorem count_lines (p : P) (T : P → Prop) [DecidablePred T] (hT : ∀ q, T q → (Spec.collinear inc).Adj p q) :
    #{q | T q} = ∑ c with inc p c, #{q | inc q c ∧ T q} := by
  rw [← card_biUnion]
  · congr 1
    ext q
    simp only [mem_filter, mem_univ, true_and, mem_biUnion]
    constructor
    · intro hq
      obtain ⟨-, c, h1, h2⟩ := hT q hq
      exact ⟨c, h1, h2, hq⟩
    · rintro ⟨c, -, -, hq⟩
      exact hq
  · intro c hc d hd hcd
    rw [Function.onFun, disjoint_left]
    intro q hq hq'
    simp only [coe_filter, mem_univ, true_and, Set.mem_ofPred_eq, mem_filter] at hc hd hq hq'
    exact hcd (h.unique p q c d (hT q hq.2).1 hc hq.1 hd hq'.1)

omit [DecidableEq P] in
theorem off_card [DecidableRel (Spec.collinear inc).Adj] [∀ c, DecidablePred (fun q => inc q c)] {p : P} {c : L}
    (hc : ¬ inc p c) : #{q | inc q c ∧ (Spec.collinear inc).Adj p q} = α := by
  rw [← h.off p c hc]
  congr 1
  ext q
  simp

theorem collinear_srg [DecidableRel (Spec.collinear inc).Adj] {v : Nat} (hv : Fintype.card P = v) (hs : 1 ≤ s) :
    (Spec.collinear inc).IsSRGWith v ((t + 1) * s) (s - 1 + t * (α - 1)) ((t + 1) * α) := by
  classical
  refine ⟨hv, ?_, ?_, ?_⟩
  · intro p
    rw [degree_card, count_lines h p (fun q => (Spec.collinear inc).Adj p q) (fun _ hq => hq)]
    rw [sum_congr rfl (g := fun _ => s), sum_const, smul_eq_mul, h.lines]
    intro c hc
    have hc : inc p c := by simpa using hc
    have : ({q | inc q c ∧ (Spec.collinear inc).Adj p q} : Finset P) = ({q | inc q c} : Finset P).erase p := by
      ext q
      simp only [mem_filter, mem_univ, true_and, mem_erase]
      exact ⟨fun ⟨h1, h2⟩ => ⟨h2.1.symm, h1⟩, fun ⟨h1, h2⟩ => ⟨h2, fun e => h1 e.symm, c, hc, h2⟩⟩
    rw [this, card_erase_of_mem (by simpa using hc), h.points]
    rfl
  · intro p q hpq
    rw [commonNeighbors_card, count_lines h p (fun r => (Spec.collinear inc).Adj p r ∧
      (Spec.collinear inc).Adj q r) (fun _ hr => hr.1)]
    obtain ⟨hne, c₀, hp, hq⟩ := hpq
    rw [← add_sum_erase _ _ (a := c₀) (by simpa using hp)]
    congr 1
    · have : ({r | inc r c₀ ∧ (Spec.collinear inc).Adj p r ∧ (Spec.collinear inc).Adj q r} : Finset P) =
          (({r | inc r c₀} : Finset P).erase p).erase q := by
        ext r
        simp only [mem_filter, mem_univ, true_and, mem_erase]
        exact ⟨fun ⟨h1, h2, h3⟩ => ⟨h3.1.symm, h2.1.symm, h1⟩,
          fun ⟨h1, h2, h3⟩ => ⟨h3, ⟨fun e => h2 e.symm, c₀, hp, h3⟩, fun e => h1 e.symm, c₀, hq, h3⟩⟩
      rw [this, card_erase_of_mem (by simp [hne.symm, hq]), card_erase_of_mem (by simpa using hp), h.points]
      omega
    · rw [sum_congr rfl (g := fun _ => α - 1), sum_const, smul_eq_mul, card_erase_of_mem (by simpa using hp),
        h.lines, Nat.add_sub_cancel]
      intro c hc
      obtain ⟨hcc, hc⟩ : c ≠ c₀ ∧ inc p c := by simpa using hc
      have hqc : ¬ inc q c := fun hqc => hcc (h.unique p q c c₀ hne hc hqc hp hq)
      have : ({r | inc r c ∧ (Spec.collinear inc).Adj p r ∧ (Spec.collinear inc).Adj q r} : Finset P) =
          ({r | inc r c ∧ (Spec.collinear inc).Adj q r} : Finset P).erase p := by
        ext r
        simp only [mem_filter, mem_univ, true_and, mem_erase]
        exact ⟨fun ⟨h1, h2, h3⟩ => ⟨h2.1.symm, h1, h3⟩,
          fun ⟨h1, h2, h3⟩ => ⟨h2, ⟨fun e => h1 e.symm, c, hc, h2⟩, h3⟩⟩
      rw [this, card_erase_of_mem, off_card h hqc]
      simp only [mem_filter, mem_univ, true_and]
      exact ⟨hc, hne.symm, c₀, hq, hp⟩
  · intro p q hne hpq
    rw [commonNeighbors_card, count_lines h p (fun r => (Spec.collinear inc).Adj p r ∧
      (Spec.collinear inc).Adj q r) (fun _ hr => hr.1)]
    rw [sum_congr rfl (g := fun _ => α), sum_const, smul_eq_mul, h.lines]
    intro c hc
    have hc : inc p c := by simpa using hc
    have hqc : ¬ inc q c := fun hqc => hpq ⟨hne, c, hc, hqc⟩
    rw [← off_card h hqc]
    congr 1
    ext r
    simp only [mem_filter, mem_univ, true_and]
    refine ⟨fun ⟨h1, h2, h3⟩ => ⟨h1, h3⟩, fun ⟨h1, h3⟩ => ⟨h1, ⟨?_, c, hc, h1⟩, h3⟩⟩
    rintro rfl
    exact hpq h3.symm

end

/-- A net: several labellings of the points, such that any two of them separate the points and give all
pairs of labels. -/
theorem net_geometry {ι P X : Type*} [Fintype ι] [Fintype P] [Fintype X] {f : ι → P → X} {n m : Nat}
    (hf : ∀ i j, i ≠ j → Function.Bijective (fun p => (f i p, f j p))) (hn : Fintype.card X = n + 1)
    (hm : Fintype.card ι = m + 1) (h1 : 1 ≤ m) :
    Spec.PartialGeometry (fun (p : P) (c : ι × X) => f c.1 p = c.2) n m m := by
  classical
  have hne : ∀ i : ι, ∃ j, j ≠ i := fun i => by
    have : Nontrivial ι := Fintype.one_lt_card_iff_nontrivial.1 (by omega)
    exact exists_ne i
  have sep : ∀ i j p q, i ≠ j → f i p = f i q → f j p = f j q → p = q := fun i j p q hij h1 h2 =>
    (hf i j hij).1 (by simp [h1, h2])
  refine ⟨?_, ?_, ?_, ?_⟩
  · rintro p q ⟨i, x⟩ ⟨j, y⟩ hpq h1 h2 h3 h4
    simp only at h1 h2 h3 h4
    have hij : i = j := by
      by_contra hij
      exact hpq (sep i j p q hij (h1.trans h2.symm) (h3.trans h4.symm))
    subst hij
    rw [← h1, h3]
  · rintro ⟨i, x⟩
    obtain ⟨j, hj⟩ := hne i
    rw [← hn, ← card_univ]
    refine card_nbij (f j) (fun _ _ => mem_univ _) ?_ ?_
    · intro p hp q hq e
      simp only [coe_filter, mem_univ, true_and, Set.mem_ofPred_eq] at hp hq
      exact sep i j p q hj.symm (hp.trans hq.symm) e
    · intro y _
      obtain ⟨p, hp⟩ := (hf i j hj.symm).2 (x, y)
      simp only [Prod.mk.injEq] at hp
      exact ⟨p, by simp [hp.1], hp.2⟩
  · intro p
    rw [← hm, ← card_univ]
    refine card_nbij Prod.fst (fun _ _ => mem_univ _) ?_ ?_
    · rintro ⟨i, x⟩ hx ⟨j, y⟩ hy e
      simp only [coe_filter, mem_univ, true_and, Set.mem_ofPred_eq] at hx hy e
      subst e
      rw [← hx, hy]
    · intro i _
      exact ⟨(i, f i p), by simp, rfl⟩
  · rintro p ⟨i, x⟩ hp
    simp only at hp
    have hcard : ((univ : Finset ι).erase i).card = m := by
      rw [card_erase_of_mem (mem_univ i), card_univ, hm, Nat.add_sub_cancel]
    have key : ∀ j, ∃ q, j ≠ i → f i q = x ∧ f j q = f j p := by
      intro j
      by_cases hj : j = i
      · exact ⟨p, fun h => (h hj).elim⟩
      · obtain ⟨q, hq⟩ := (hf i j (Ne.symm hj)).2 (x, f j p)
        simp only [Prod.mk.injEq] at hq
        exact ⟨q, fun _ => hq⟩
    choose g hg using key
    rw [← hcard]
    symm
    refine card_nbij g ?_ ?_ ?_
    · intro j hj
      obtain ⟨h2, h3⟩ := hg j (by simpa using hj)
      refine mem_coe.2 (mem_filter.2 ⟨mem_univ _, h2, fun e => hp ?_, (j, f j p), rfl, h3⟩)
      rw [e, h2]
    · intro j hj j' hj' e
      obtain ⟨h2, h3⟩ := hg j (by simpa using hj)
      obtain ⟨h2', h3'⟩ := hg j' (by simpa using hj')
      by_contra hne
      refine hp ?_
      rw [sep j j' p (g j) hne h3.symm (by rw [e]; exact h3'.symm), h2]
    · intro q hq
      simp only [coe_filter, mem_univ, true_and, Set.mem_ofPred_eq] at hq
      obtain ⟨hq, hpq, ⟨j, y⟩, h2, h3⟩ := hq
      simp only at h2 h3
      have hj : j ≠ i := by
        rintro rfl
        exact hp (h2.trans (h3.symm.trans hq))
      obtain ⟨h4, h5⟩ := hg j hj
      exact ⟨j, by simpa using hj, sep i j _ _ hj.symm (h4.trans hq.symm) (h5.trans (h2.trans h3.symm))⟩

/-- The blocks of a Steiner system, as points; they are collinear if they meet. -/
theorem steiner_geometry {X B : Type*} [Fintype X] [Fintype B] [DecidableEq X] {inc : X → B → Prop} {r K : Nat}
    [∀ x b, Decidable (inc x b)]
    (hxy : ∀ x y, x ≠ y → ∃ b, inc x b ∧ inc y b ∧ ∀ c, inc x c → inc y c → c = b)
    (hK : ∀ b, #{x | inc x b} = K + 1) (hr : ∀ x, #{b | inc x b} = r + 1) :
    Spec.PartialGeometry (fun b x => inc x b) r K (K + 1) := by
  classical
  refine ⟨?_, ?_, ?_, ?_⟩
  · intro b c x y hbc h1 h2 h3 h4
    by_contra hne
    obtain ⟨d, -, -, h⟩ := hxy x y hne
    exact hbc ((h b h1 h3).trans (h c h2 h4).symm)
  · intro x
    rw [← hr x]
    congr
  · intro b
    rw [← hK b]
    congr
  · intro b x hx
    have key : ∀ y, ∃ d, y ≠ x → inc x d ∧ inc y d ∧ ∀ c, inc x c → inc y c → c = d := by
      intro y
      by_cases hy : y = x
      · exact ⟨b, fun h => (h hy).elim⟩
      · obtain ⟨d, hd⟩ := hxy x y (Ne.symm hy)
        exact ⟨d, fun _ => hd⟩
    choose g hg using key
    have hb : ∀ y, inc y b → y ≠ x := by
      rintro y hy rfl
      exact hx hy
    rw [← hK b]
    symm
    refine card_nbij g ?_ ?_ ?_
    · intro y hy
      have hy : inc y b := by simpa using hy
      obtain ⟨h1, h2, -⟩ := hg y (hb y hy)
      simp only [coe_filter, mem_univ, true_and, Set.mem_ofPred_eq]
      exact ⟨h1, fun e => hx (e ▸ h1), y, hy, h2⟩
    · intro y hy z hz e
      have hy : inc y b := by simpa using hy
      have hz : inc z b := by simpa using hz
      obtain ⟨h1, h2, -⟩ := hg y (hb y hy)
      obtain ⟨h1', h2', -⟩ := hg z (hb z hz)
      by_contra hne
      obtain ⟨d, -, -, hd⟩ := hxy y z hne
      have := (hd b hy hz).trans (hd (g y) h2 (e ▸ h2')).symm
      exact hx (this ▸ h1)
    · intro c hc
      simp only [coe_filter, mem_univ, true_and, Set.mem_ofPred_eq] at hc
      obtain ⟨hc, -, y, h1, h2⟩ := hc
      exact ⟨y, by simpa using h1, ((hg y (hb y h1)).2.2 c hc h2).symm⟩

end TDS
