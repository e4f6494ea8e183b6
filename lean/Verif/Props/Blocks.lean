import Verif.Proof.Blocks
import Verif.Proof.Limit

/-! # C58: parameters of disjoint complete graphs and of complete multipartite graphs -/

namespace TDS

open Finset

/-- `a` cliques of size `b`. -/
def cliqueGraph (a b : ℕ) : SimpleGraph (Fin a × Fin b) where
  Adj x y := x.1 = y.1 ∧ x.2 ≠ y.2
  symm := ⟨fun _ _ h => ⟨h.1.symm, h.2.symm⟩⟩
  loopless := ⟨fun _ h => h.2 rfl⟩

instance (a b : ℕ) : DecidableRel (cliqueGraph a b).Adj := fun x y =>
  inferInstanceAs (Decidable (x.1 = y.1 ∧ x.2 ≠ y.2))

theorem cliqueGraph_srg (a b : ℕ) :
    (cliqueGraph a b).IsSRGWith (a * b) (b - 1) (b - 2) 0 where
  card := by simp
  regular := by
    intro x
    rw [← SimpleGraph.card_neighborFinset_eq_degree]
    have : (cliqueGraph a b).neighborFinset x = {x.1} ×ˢ (univ.erase x.2) := by
      ext y
      rw [SimpleGraph.mem_neighborFinset, mem_product, mem_singleton, mem_erase]
      exact ⟨fun h => ⟨h.1.symm, h.2.symm, mem_univ _⟩, fun h => ⟨h.1.symm, h.2.1.symm⟩⟩
    rw [this, card_product, card_singleton, card_erase_of_mem (mem_univ _), card_univ,
      Fintype.card_fin, one_mul]
  of_adj := by
    intro x y hxy
    rw [← Set.toFinset_card]
    have : ((cliqueGraph a b).commonNeighbors x y).toFinset =
        {x.1} ×ˢ ((univ.erase x.2).erase y.2) := by
      ext z
      rw [Set.mem_toFinset, SimpleGraph.mem_commonNeighbors, mem_product, mem_singleton, mem_erase,
        mem_erase]
      exact ⟨fun h => ⟨h.1.1.symm, h.2.2.symm, h.1.2.symm, mem_univ _⟩,
        fun h => ⟨⟨h.1.symm, h.2.2.1.symm⟩, ⟨by rw [h.1]; exact hxy.1.symm, h.2.1.symm⟩⟩⟩
    rw [this, card_product, card_singleton,
      card_erase_of_mem (mem_erase.2 ⟨hxy.2.symm, mem_univ _⟩),
      card_erase_of_mem (mem_univ _), card_univ, Fintype.card_fin, one_mul]
    rfl
  of_not_adj := by
    intro x y hne hxy
    rw [← Set.toFinset_card, card_eq_zero, eq_empty_iff_forall_notMem]
    intro z hz
    rw [Set.mem_toFinset, SimpleGraph.mem_commonNeighbors] at hz
    obtain ⟨h1, h2⟩ := hz
    refine hxy ⟨h1.1.trans h2.1.symm, fun e => hne ?_⟩
    exact Prod.ext (h1.1.trans h2.1.symm) e

section
variable {v : Nat} {k l u : Int} (h : Good v k l u) {out : List Mat} (ho : IsOutput v k l u out)
include h ho

theorem some_result {kn ln un : ℕ} (hk : (kn : Int) = k) (hl : (ln : Int) = l) (hu : (un : Int) = u)
    {V : Type*} [Fintype V] [DecidableEq V] {G : SimpleGraph V} [DecidableRel G.Adj]
    (hG : G.IsSRGWith v kn ln un) : ∃ m ∈ out, Spec.IsSRG v k l u m := by
  have h1 := h.l0
  have h2 := h.lk
  subst hk; subst hl; subst hu
  have hkl : 0 < kn ∨ ln = 0 := Or.inl (by omega)
  have ha := arr_of_srg hG (Fintype.equivFinOfCardEq hG.card).symm
  obtain ⟨out', hs, M', hrel, hm⟩ := solve_found ha h.v3 h.v66 (by omega)
  obtain ⟨s, e1, e2⟩ := ho
  have h3 := h.v3
  rw [seed_eq (by omega), Except.ok.injEq] at e1
  rw [← e1, hs, Except.ok.injEq] at e2
  subst e2
  exact ⟨_, hm, isSRG_of_arr (hrel.arr ha)⟩

end

section
variable {v : Nat} {k l u : Int} {m m' : Mat} (hs : Spec.IsSRG v k l u m)
variable (hs' : Spec.IsSRG v k l u m') (hj : Spec.Justified v m) (hj' : Spec.Justified v m')
include hs hs' hj hj'

theorem multi_unique (hu : u = k) (hk : 0 ≤ k) : m = m' := by
  have ha := arr_of_isSRG hs
  have ha' := arr_of_isSRG hs'
  have first : ∀ {M : Mat}, Spec.IsSRG v k l u M → Spec.Justified v M →
      BlockFirst v (fun i j => j < i) (fun i j => Spec.ent M i j = 0) := by
    intro M hM hJ R i j hRi hRj hi hj' hji he hE
    have hA := arr_of_isSRG hM
    have := Justified.ent hJ hRj hji hi (fun r hr => by
      have := he r hr
      rcases hA.bin r i with a | a <;> rcases hA.bin r j with b | b <;> simp [a, b] at this ⊢)
    rcases hA.bin R i with a | a
    · exact a
    · rw [a, hE] at this; simp at this
  have hb := blocks_unique (ord := fun i j => j < i) (fun i j hij => by omega)
    (ha.blocks_multi hu hk) (ha'.blocks_multi hu hk) (first hs hj) (first hs' hj')
  refine square_ext ⟨hs.adj.square, hs.adj.part.rect⟩ ⟨hs'.adj.square, hs'.adj.part.rect⟩ ?_
  intro i hi j hjv
  have := hb i hi j hjv
  rcases ha.bin i j with a | a <;> rcases ha'.bin i j with b | b <;> simp [a, b] at this ⊢

theorem clique_unique (hu : u = 0) : m = m' := by
  have ha := arr_of_isSRG hs
  have ha' := arr_of_isSRG hs'
  have first : ∀ {M : Mat}, Spec.IsSRG v k l u M → Spec.Justified v M →
      BlockFirst v (fun i j => i < j) (fun i j => i = j ∨ Spec.ent M i j = 1) := by
    intro M hM hJ R i j hRi hRj hi hj' hij he hE
    have hA := arr_of_isSRG hM
    have := Justified.ent hJ hRi hij hj' (fun r hr => by
      have := he r hr
      have e1 : r ≠ i := by omega
      have e2 : r ≠ j := by omega
      rcases hA.bin r i with a | a <;> rcases hA.bin r j with b | b <;>
        simp [a, b, e1, e2] at this ⊢)
    rcases hE with hE | hE
    · omega
    · rcases hA.bin R i with a | a
      · rw [a, hE] at this; simp at this
      · exact Or.inr a
  have hb := blocks_unique (ord := fun i j => i < j) (fun i j hij => by omega)
    (ha.blocks_cliques hu) (ha'.blocks_cliques hu) (first hs hj) (first hs' hj')
  refine square_ext ⟨hs.adj.square, hs.adj.part.rect⟩ ⟨hs'.adj.square, hs'.adj.part.rect⟩ ?_
  intro i hi j hjv
  by_cases hij : i = j
  · rw [hij, ha.diag j hjv, ha'.diag j hjv]
  · have := hb i hi j hjv
    rcases ha.bin i j with a | a <;> rcases ha'.bin i j with b | b <;> simp [a, b, hij] at this ⊢

end

section
variable {v : Nat} {k l : Int}

/-- **C58.**  For the parameters of a complete multipartite graph (`u = k`; the parts then have
`v - k` vertices) the search returns exactly one matrix if `v - k` divides `v`, and none otherwise. -/
theorem C58_multipartite (h : Good v k l k) {out : List Mat} (ho : IsOutput v k l k out) :
    out.length = if (v : Int) - k ∣ v then 1 else 0 := by
  have h1 := h.l0
  have h2 := h.lk
  have h3 := h.kv
  have hl : l = 2 * k - v := by
    have hc := h.count
    have : ((v : Int) - k - 1) = k - l - 1 := by
      have hk : k ≠ 0 := by omega
      apply mul_left_cancel₀ hk
      rw [← hc]; ring
    omega
  obtain ⟨kn, rfl⟩ : ∃ n : ℕ, k = n := ⟨k.toNat, by omega⟩
  have hkv : kn < v := by omega
  have hcast : ((v : Int) - kn) = ((v - kn : ℕ) : Int) := by omega
  have all : ∀ m ∈ out, Spec.IsSRG v kn l kn m ∧ Spec.Justified v m := by
    intro m hm
    have hs := C56_multipartite h ho hm rfl
    exact ⟨hs, (C44_exact h.v3 h.v66 (Or.inl (by omega)) ho hs).1 hm⟩
  split
  · next hd =>
    rw [hcast, Int.natCast_dvd_natCast] at hd
    obtain ⟨a, ha⟩ := hd
    have hex : ∃ m ∈ out, Spec.IsSRG v kn l kn m := by
      have hG := (cliqueGraph_srg a (v - kn)).compl
      have hb : 2 ≤ v - kn := by
        by_contra hlt
        have : (v : Int) = kn + 1 := by omega
        have := h.degenerate this
        omega
      have e0 : a * (v - kn) = v := by rw [mul_comm]; exact ha.symm
      rw [e0] at hG
      refine some_result h ho (ln := v - (2 * (v - kn - 1) - 0) - 2) ?_ ?_ ?_ hG
      · omega
      · omega
      · omega
    obtain ⟨m, hm, -⟩ := hex
    have hall : ∀ m' ∈ out, m' = m := fun m' hm' =>
      multi_unique (all m' hm').1 (all m hm).1 (all m' hm').2 (all m hm).2 rfl (by omega)
    have hn := C04_nodup h.v3 h.v66 ho
    match out, hn, hm, hall with
    | [x], _, _, _ => rfl
    | x :: y :: t, hn, _, hall =>
      exfalso
      have e1 := hall x (by simp)
      have e2 := hall y (by simp)
      simp [e1, e2] at hn
  · next hd =>
    rw [hcast, Int.natCast_dvd_natCast] at hd
    rw [List.length_eq_zero_iff, List.eq_nil_iff_forall_not_mem]
    intro m hm
    have hb := (arr_of_isSRG (all m hm).1).blocks_multi rfl (by omega)
    rw [Int.toNat_natCast] at hb
    exact hd hb.dvd

/-- **C58.**  For the parameters of disjoint complete graphs (`u = 0`) a strongly regular matrix is
among the results if and only if `k + 1` divides `v`, and then only one. -/
theorem C58_cliques (h : Good v k l 0) {out : List Mat} (ho : IsOutput v k l 0 out) :
    ((∃ m ∈ out, Spec.IsSRG v k l 0 m) ↔ k + 1 ∣ (v : Int)) ∧
    ∀ m ∈ out, ∀ m' ∈ out, Spec.IsSRG v k l 0 m → Spec.IsSRG v k l 0 m' → m = m' := by
  have h1 := h.l0
  have h2 := h.lk
  have h3 := h.kv
  have hl : l = k - 1 := by
    have hc := h.count
    rw [mul_zero] at hc
    rcases mul_eq_zero.1 hc.symm with e | e <;> omega
  obtain ⟨kn, rfl⟩ : ∃ n : ℕ, k = n := ⟨k.toNat, by omega⟩
  have hcast : ((kn : Int) + 1) = ((kn + 1 : ℕ) : Int) := by push_cast; rfl
  refine ⟨⟨?_, fun hd => ?_⟩, ?_⟩
  · rintro ⟨m, hm, hs⟩
    have hb := (arr_of_isSRG hs).blocks_cliques rfl
    rw [Int.toNat_natCast] at hb
    rw [hcast, Int.natCast_dvd_natCast]
    exact hb.dvd
  · rw [hcast, Int.natCast_dvd_natCast] at hd
    obtain ⟨a, ha⟩ := hd
    have hG := cliqueGraph_srg a (kn + 1)
    have e0 : a * (kn + 1) = v := by rw [mul_comm]; exact ha.symm
    rw [e0] at hG
    exact some_result h ho (by omega) (by omega) rfl hG
  · intro m hm m' hm' hs hs'
    have hk : (0 : Int) < kn ∨ l = 0 := Or.inl (by omega)
    exact clique_unique hs hs' ((C44_exact h.v3 h.v66 hk ho hs).1 hm)
      ((C44_exact h.v3 h.v66 hk ho hs').1 hm') rfl

end

/-- The octahedron: parameters with a graph. -/
example : Good 6 4 2 4 ∧ ((6 : Nat) : Int) - 4 ∣ (6 : Nat) :=
  ⟨⟨by decide, by decide, by decide, by decide, by decide, by decide, by decide, by decide⟩,
    by decide⟩

/-- Parameters that pass all checks and have none. -/
example : Good 8 5 2 5 ∧ ¬ ((8 : Nat) : Int) - 5 ∣ (8 : Nat) :=
  ⟨⟨by decide, by decide, by decide, by decide, by decide, by decide, by decide, by decide⟩,
    by decide⟩

/-- Two triangles. -/
example : Good 6 2 1 0 ∧ (2 : Int) + 1 ∣ ((6 : Nat) : Int) :=
  ⟨⟨by decide, by decide, by decide, by decide, by decide, by decide, by decide, by decide⟩,
    by decide⟩

end TDS
