import Verif.Proof.Arrays
import Verif.Proof.Start
import Verif.Props.C01
import Mathlib.Tactic.LinearCombination
import Mathlib.Logic.Equiv.Fin.Basic

/-! C28–C31: swapping, complements and the parameter condition. -/

namespace TDS

open Finset

/-! ### C28 -/

namespace Sorter

theorem swapList_perm {v i j : Nat} (hi : i < v) (hj : j < v) :
    ((List.range v).map (fun x => if x = i then j else if x = j then i else x)).Perm
      (List.range v) := by
  have he : (fun x => if x = i then j else if x = j then i else x) = ⇑(Equiv.swap i j) := by
    funext x
    rw [Equiv.swap_apply_def]
  rw [he]
  refine (List.perm_ext_iff_of_nodup (List.nodup_range.map (Equiv.injective _))
    List.nodup_range).2 ?_
  intro a
  simp only [List.mem_map, List.mem_range]
  constructor
  · rintro ⟨x, hx, rfl⟩
    rw [Equiv.swap_apply_def]
    split_ifs <;> omega
  · intro ha
    refine ⟨Equiv.swap i j a, ?_, by simp⟩
    rw [Equiv.swap_apply_def]
    split_ifs <;> omega

theorem swap_spec {v : Nat} {M : Mat} (h : Spec.Square v M) {i j : Nat} (hi : i < v) (hj : j < v) :
    ∃ M', swap M i j = .ok M' ∧ Spec.Square v M' ∧ Spec.Relabels v M M' ∧
      ∀ a < v, ∀ b < v, Spec.ent M' a b =
        Spec.ent M (Equiv.swap i j a) (Equiv.swap i j b) := by
  have hp := swapList_perm hi hj
  have h1 := permute_relabels (M := M) hp
  refine ⟨_, by unfold swap; simp only [h.rows]; rw [if_pos ⟨hi, hj⟩], h1.1, h1.2, ?_⟩
  intro a ha b hb
  rw [permute_ent (by simpa using ha) (by simpa using hb), getD_map_range ha, getD_map_range hb,
    Equiv.swap_apply_def, Equiv.swap_apply_def]

theorem trace_eq {v : Nat} {M : Mat} (h : Spec.Square v M) :
    trace M = ∑ i : Fin v, Spec.ent M i i := by
  unfold trace
  rw [list_sum_range, Finset.sum_range, h.rows]
  rfl

theorem trace_relabel {v : Nat} {M M' : Mat} (h : Spec.Square v M) (h' : Spec.Square v M')
    (hr : Spec.Relabels v M M') : trace M' = trace M := by
  obtain ⟨σ, hσ⟩ := hr
  rw [trace_eq h, trace_eq h']
  simp only [hσ]
  exact Equiv.sum_comp σ (fun t : Fin v => Spec.ent M t t)

end Sorter

/-- **C28.**  `swap(M, i, j)` exchanges vertices `i` and `j`; it is its own inverse and keeps
symmetry, the zero diagonal and strong regularity. -/
theorem C28_swap {v : Nat} {M : Mat} (h : Spec.Square v M) {i j : Nat} (hi : i < v) (hj : j < v) :
    ∃ M', Sorter.swap M i j = .ok M' ∧ Spec.Square v M' ∧
      (∀ a < v, ∀ b < v, Spec.ent M' a b =
        Spec.ent M (Equiv.swap i j a) (Equiv.swap i j b)) ∧
      Sorter.swap M' i j = .ok M ∧
      (Spec.Symmetric v M → Spec.Symmetric v M') ∧
      ((∀ a < v, Spec.ent M a a = 0) → ∀ a < v, Spec.ent M' a a = 0) ∧
      (∀ k l u, Spec.IsSRG v k l u M → Spec.IsSRG v k l u M') := by
  obtain ⟨M', h1, h2, h3, h4⟩ := Sorter.swap_spec h hi hj
  obtain ⟨M'', g1, g2, g3, g4⟩ := Sorter.swap_spec h2 hi hj
  have hlt : ∀ a < v, Equiv.swap i j a < v := by
    intro a ha
    rw [Equiv.swap_apply_def]
    split_ifs <;> omega
  have he : M'' = M := by
    refine square_ext g2 h ?_
    intro a ha b hb
    rw [g4 a ha b hb, h4 _ (hlt a ha) _ (hlt b hb)]
    simp
  refine ⟨M', h1, h2, h4, by rw [g1, he], symmetric_relabel h3, ?_,
    fun k l u hS => isSRG_relabel hS h2 h3⟩
  intro hd a ha
  rw [h4 a ha a ha]
  exact hd _ (hlt a ha)

/-- **C28**, verification: `swap_and_verify` returns the swapped matrix exactly for symmetric
matrices of trace 0, and asserts otherwise; both functions raise IndexError outside the range. -/
theorem C28_verify {v : Nat} {M : Mat} (h : Spec.Square v M) (i j : Nat) :
    (i < v → j < v →
      ((Spec.Symmetric v M ∧ ∑ t : Fin v, Spec.ent M t t = 0) →
        Sorter.swapAndVerify M i j = Sorter.swap M i j) ∧
      (¬ (Spec.Symmetric v M ∧ ∑ t : Fin v, Spec.ent M t t = 0) →
        Sorter.swapAndVerify M i j = .error .assertion)) ∧
    (¬ (i < v ∧ j < v) → Sorter.swap M i j = .error .index ∧
      Sorter.swapAndVerify M i j = .error .index) := by
  constructor
  · intro hi hj
    obtain ⟨M', h1, h2, h3, h4⟩ := Sorter.swap_spec h hi hj
    have ht := Sorter.trace_relabel h h2 h3
    rw [Sorter.trace_eq h] at ht
    have hsy : Spec.Symmetric v M' ↔ Spec.Symmetric v M :=
      ⟨symmetric_relabel (relabels_symm h3), symmetric_relabel h3⟩
    unfold Sorter.swapAndVerify
    rw [h1, ok_bind]
    constructor
    · rintro ⟨hs, h0⟩
      rw [ht, h0]
      have : decide (M' = Sorter.transpose M') = true := by
        simpa using (Sorter.eq_transpose_iff h2).2 (hsy.2 hs)
      rw [this]
      rfl
    · intro hn
      rw [ht]
      by_cases h0 : ∑ t : Fin v, Spec.ent M t t = 0
      · have : decide (M' = Sorter.transpose M') = false := by
          have : ¬ M' = Sorter.transpose M' := fun hc =>
            hn ⟨hsy.1 ((Sorter.eq_transpose_iff h2).1 hc), h0⟩
          simpa using this
        rw [h0, this]
        rfl
      · have : (∑ t : Fin v, Spec.ent M t t == 0) = false := by simpa using h0
        rw [this]
        rfl
  · intro hn
    have : Sorter.swap M i j = .error .index := by
      unfold Sorter.swap
      simp only [h.rows]
      rw [if_neg hn]
    refine ⟨this, ?_⟩
    unfold Sorter.swapAndVerify
    rw [this]; rfl

example : Sorter.swap [[0, 1, 1], [1, 0, 0], [1, 0, 0]] 0 1 = .ok [[0, 1, 0], [1, 0, 1], [0, 1, 0]] ∧
    Sorter.swapAndVerify [[0, 1], [0, 0]] 0 1 = .error .assertion ∧
    Spec.Square 3 [[0, 1, 1], [1, 0, 0], [1, 0, 0]] := by
  refine ⟨by decide +kernel, by decide +kernel, ⟨by decide, by decide⟩⟩

theorem Sorter.swapInt_eq {M : Mat} {i j : Int} {p q : Nat}
    (hi : Sorter.position M.length i = .ok p) (hj : Sorter.position M.length j = .ok q)
    (hp : p < M.length) (hq : q < M.length) : Sorter.swapInt M i j = Sorter.swap M p q := by
  unfold Sorter.swapInt Sorter.swap
  simp only [hi, hj, ok_bind]
  rw [if_pos ⟨hp, hq⟩]
  congr 2
  apply List.ext_getElem
  · simp
  · intro n h1 h2
    simp only [List.length_set, List.length_range] at h1
    simp only [List.getElem_set, List.getElem_map, List.getElem_range, List.getD_eq_getElem?_getD,
      List.getElem?_range hp, List.getElem?_range hq, Option.getD_some]
    split_ifs <;> omega

/-- **C28**, integer indices: an index below zero counts from the end, so that `swap(M, i, j)` with
`-v ≤ i, j < v` swaps the vertices `i mod v` and `j mod v`; any other index is an IndexError. -/
theorem C28_index (M : Mat) (i j : Int) :
    (-(M.length : Int) ≤ i → i < M.length → -(M.length : Int) ≤ j → j < M.length →
      Sorter.swapInt M i j = Sorter.swap M (i % M.length).toNat (j % M.length).toNat ∧
      Sorter.swapAndVerifyInt M i j =
        Sorter.swapAndVerify M (i % M.length).toNat (j % M.length).toNat) ∧
    (¬ ((-(M.length : Int) ≤ i ∧ i < M.length) ∧ (-(M.length : Int) ≤ j ∧ j < M.length)) →
      Sorter.swapInt M i j = .error .index ∧ Sorter.swapAndVerifyInt M i j = .error .index) := by
  have hpos : ∀ x : Int, -(M.length : Int) ≤ x → x < M.length →
      Sorter.position M.length x = .ok (x % M.length).toNat ∧ (x % M.length).toNat < M.length := by
    intro x h1 h2
    unfold Sorter.position
    by_cases h0 : 0 ≤ x
    · rw [if_pos ⟨h0, h2⟩, Int.emod_eq_of_lt h0 h2]
      exact ⟨rfl, by omega⟩
    · have : x % M.length = x + M.length := by
        rw [← Int.add_emod_right, Int.emod_eq_of_lt (by omega) (by omega)]
      rw [if_neg (fun h => h0 h.1), if_pos ⟨h1, by omega⟩, this]
      exact ⟨rfl, by omega⟩
  have hneg : ∀ x : Int, ¬ (-(M.length : Int) ≤ x ∧ x < M.length) →
      Sorter.position M.length x = .error .index := by
    intro x hx
    unfold Sorter.position
    rw [if_neg (by omega), if_neg (by omega)]
  constructor
  · intro h1 h2 h3 h4
    obtain ⟨a1, a2⟩ := hpos i h1 h2
    obtain ⟨b1, b2⟩ := hpos j h3 h4
    have := Sorter.swapInt_eq a1 b1 a2 b2
    refine ⟨this, ?_⟩
    unfold Sorter.swapAndVerifyInt Sorter.swapAndVerify
    rw [this]
  · intro hn
    have : Sorter.swapInt M i j = .error .index := by
      unfold Sorter.swapInt
      by_cases hj : -(M.length : Int) ≤ j ∧ j < M.length
      · have hi := hneg i (fun h => hn ⟨h, hj⟩)
        simp only [(hpos j hj.1 hj.2).1, hi, ok_bind]
        rfl
      · simp only [hneg j hj]
        rfl
    refine ⟨this, ?_⟩
    unfold Sorter.swapAndVerifyInt
    rw [this]; rfl

example : Sorter.swapInt [[0, 1, 1], [1, 0, 0], [1, 0, 0]] (-3) (-2) =
      .ok [[0, 1, 0], [1, 0, 1], [0, 1, 0]] ∧
    Sorter.swapInt [[0, 1, 1], [1, 0, 0], [1, 0, 0]] 0 (-4) = .error .index := by
  refine ⟨by decide +kernel, by decide +kernel⟩

/-! ### C29, C30 -/

theorem complement_spec {v : Nat} {m : Mat} (h : Spec.Square v m) (hv : 0 < v)
    (hb : ∀ i < v, ∀ j < v, Spec.ent m i j = 0 ∨ Spec.ent m i j = 1) :
    ∃ m', Utils.complement m = .ok m' ∧ Spec.Square v m' ∧
      ∀ i < v, ∀ j < v, Spec.ent m' i j = 1 - Spec.ent m i j - if i = j then 1 else 0 := by
  have hnc : ncols m = v := by
    cases hm : m with
    | nil => rw [hm] at h; have := h.rows; simp at this; omega
    | cons r t => exact h.rect r (by rw [hm]; simp)
  refine ⟨matOf v (fun i j => 1 - Spec.ent m i j - if i = j then 1 else 0) v, ?_,
    matOf_square _ _, fun i hi j hj => ent_matOf hi hj⟩
  unfold Utils.complement
  simp only [h.rows, hnc]
  rw [if_neg (by omega), if_pos (Or.inl trivial)]
  congr 1
  unfold matOf
  apply List.map_congr_left
  intro i hi
  rw [List.mem_range] at hi
  apply List.map_congr_left
  intro j hj
  rw [List.mem_range] at hj
  have hlen : (m.getD i []).length = v := by
    rw [List.getD_eq_getElem _ _ (by rw [h.rows]; exact hi)]
    exact h.rect _ (List.getElem_mem _)
  have h1 : ((Utils.invert m).getD i []).getD j 0 = 1 - Spec.ent m i j := by
    unfold Utils.invert
    rw [getD_map_lt (by rw [h.rows]; exact hi) [] [], getD_map_lt (by rw [hlen]; exact hj) 0 0]
    have := hb i hi j hj
    unfold Spec.ent at this ⊢
    rcases this with h0 | h0 <;> rw [h0] <;> simp
  rw [h1]
  unfold Utils.delta
  by_cases h1v : v = 1
  · rw [if_pos h1v]
    have : i = 0 := by omega
    have : j = 0 := by omega
    subst_vars
    rfl
  · rw [if_neg h1v]

/-- **C29.**  The complement of a strongly regular graph is strongly regular with the parameters
given by `complement_vklu`. -/
theorem C29_complement {v : Nat} {k l u : Int} {m : Mat} (hv : 0 < v) (h : Spec.IsSRG v k l u m) :
    ∃ m' k' l' u', Utils.complement m = .ok m' ∧
      Utils.complementVklu v k l u = ((v : Int), k', l', u') ∧ Spec.IsSRG v k' l' u' m' := by
  rw [isSRG_iff] at h
  obtain ⟨hs, hb, hd, hsy, hdeg, hm⟩ := h
  obtain ⟨m', h1, h2, h3⟩ := complement_spec hs hv (fun i hi j hj => hb ⟨i, hi⟩ ⟨j, hj⟩)
  refine ⟨m', _, _, _, h1, rfl, ?_⟩
  rw [isSRG_iff]
  have e : ∀ i j : Fin v, Spec.ent m' i j = 1 - Spec.ent m i j - if i = j then 1 else 0 := by
    intro i j
    rw [h3 i i.2 j j.2]
    simp only [Fin.ext_iff]
  refine ⟨h2, ?_, ?_, ?_, ?_, ?_⟩
  · intro i j
    rw [e]
    by_cases hij : i = j
    · subst hij; simp [hd]
    · rw [if_neg hij]
      rcases hb i j with h0 | h0 <;> rw [h0] <;> simp
  · intro i; rw [e]; simp [hd]
  · intro i j
    rw [e, e, hsy i j]
    by_cases hij : i = j
    · subst hij; rfl
    · rw [if_neg hij, if_neg (Ne.symm hij)]
  · intro i
    simp only [e, Finset.sum_sub_distrib, hdeg]
    simp
  · intro i j hij
    have hexp : ∀ t : Fin v, Spec.ent m' i t * Spec.ent m' j t =
        1 - Spec.ent m i t - Spec.ent m j t + Spec.ent m i t * Spec.ent m j t
          - (if t = i then 1 - Spec.ent m j i else 0) - (if t = j then 1 - Spec.ent m i j else 0) := by
      intro t
      rw [e, e]
      by_cases hi : i = t
      · subst hi
        rw [if_pos rfl, if_neg (Ne.symm hij), if_pos rfl, if_neg hij, hd]
        ring
      · by_cases hj : j = t
        · subst hj
          rw [if_neg hij, if_pos rfl, if_neg (Ne.symm hij), if_pos rfl, hd]
          ring
        · rw [if_neg hi, if_neg hj, if_neg (Ne.symm hi), if_neg (Ne.symm hj)]
          ring
    rw [Finset.sum_congr rfl (fun t _ => hexp t)]
    simp only [Finset.sum_sub_distrib, Finset.sum_add_distrib, hdeg, hm i j hij]
    rw [Finset.sum_ite_eq' univ i, Finset.sum_ite_eq' univ j]
    simp only [Finset.mem_univ, if_true, Finset.sum_const, Finset.card_univ, Fintype.card_fin,
      nsmul_eq_mul, mul_one]
    rw [e, if_neg hij, hsy j i]
    rcases hb i j with h0 | h0 <;> rw [h0]
    · norm_num; ring
    · norm_num; ring

/-- **C30.**  Complementing twice gives the matrix back. -/
theorem C30_involution {v : Nat} {m : Mat} (hv : 0 < v) (h : Spec.Square v m)
    (hb : ∀ r ∈ m, Spec.Bin r) (hd : ∀ i < v, Spec.ent m i i = 0) :
    (Utils.complement m >>= Utils.complement) = .ok m := by
  rw [bin_iff h] at hb
  obtain ⟨m', h1, h2, h3⟩ := complement_spec h hv hb
  obtain ⟨m'', g1, g2, g3⟩ := complement_spec h2 hv (by
    intro i hi j hj
    rw [h3 i hi j hj]
    by_cases hij : i = j
    · subst hij; rw [hd i hi]; simp
    · rw [if_neg hij]
      rcases hb i hi j hj with h0 | h0 <;> rw [h0] <;> simp)
  rw [h1, ok_bind, g1]
  congr 1
  refine square_ext g2 h ?_
  intro i hi j hj
  rw [g3 i hi j hj, h3 i hi j hj]
  omega

/-- **C30**, parameters. -/
theorem C30_params (v k l u : Int) :
    (fun p : Int × Int × Int × Int => Utils.complementVklu p.1 p.2.1 p.2.2.1 p.2.2.2)
      (Utils.complementVklu v k l u) = (v, k, l, u) := by
  unfold Utils.complementVklu
  simp only [Prod.mk.injEq]
  refine ⟨trivial, ?_, ?_, ?_⟩ <;> omega

/-- **C30** without the zero diagonal: `complement` then leaves the values 0/1. -/
theorem C30_diagonal_needed : Utils.complement [[1]] = .ok [[-1]] := by decide +kernel

/-- The pentagon. -/
def pentagon : Mat :=
  [[0, 1, 1, 0, 0], [1, 0, 0, 1, 0], [1, 0, 0, 0, 1], [0, 1, 0, 0, 1], [0, 0, 1, 1, 0]]

theorem pentagon_srg : Spec.IsSRG 5 2 0 1 pentagon := by
  rw [isSRG_iff]
  refine ⟨⟨by decide, by decide⟩, by decide, by decide, by decide, by decide, by decide⟩

example : Utils.complement pentagon =
    .ok [[0, 0, 0, 1, 1], [0, 0, 1, 0, 1], [0, 1, 0, 1, 0], [1, 0, 1, 0, 0], [1, 1, 0, 0, 0]] ∧
    Utils.complementVklu 5 2 0 1 = (5, 2, 0, 1) ∧ Utils.complementVklu 10 3 0 1 = (10, 6, 3, 4) := by
  decide +kernel

/-! ### C31 -/

theorem assertSrg_iff (v k l u : Int) :
    Utils.assertSrg v k l u = .ok () ↔ (v - k - 1) * u = k * (k - l - 1) := by
  unfold Utils.assertSrg pyAssert
  by_cases h : (v - k - 1) * u = k * (k - l - 1)
  · simp [h]
  · have : ((v - k - 1) * u == k * (k - l - 1)) = false := by simpa using h
    simp [this, h]

theorem arr_of_isSRG {v : Nat} {k l u : Int} {m : Mat} (h : Spec.IsSRG v k l u m) :
    Arr v k l u (Spec.ent m) := by
  have hs : Spec.Square v m := ⟨h.adj.square, h.adj.part.rect⟩
  rw [isSRG_iff] at h
  obtain ⟨-, hb, hd, hsy, hdeg, hm⟩ := h
  refine ⟨?_, fun i hi => hd ⟨i, hi⟩, fun i hi j hj => hsy ⟨i, hi⟩ ⟨j, hj⟩, ?_, ?_⟩
  · intro i j
    by_cases hi : i < v
    · by_cases hj : j < v
      · exact hb ⟨i, hi⟩ ⟨j, hj⟩
      · left
        unfold Spec.ent
        have hi' : i < m.length := by rw [hs.rows]; exact hi
        rw [List.getD_eq_getElem m _ hi']
        exact List.getD_eq_default _ _ (by rw [hs.rect _ (List.getElem_mem _)]; omega)
    · left
      unfold Spec.ent
      rw [List.getD_eq_default m _ (by rw [hs.rows]; omega)]
      simp
  · intro i hi
    rw [Finset.sum_range]; exact hdeg ⟨i, hi⟩
  · intro i hi j hj hij
    rw [Finset.sum_range]; exact hm ⟨i, hi⟩ ⟨j, hj⟩ (by simpa using hij)

/-- **C31.**  `assert_srg` accepts the parameters of every strongly regular graph; for matrices
and for graphs in the sense of Mathlib. -/
theorem C31_accepts {v : Nat} {k l u : Int} {m : Mat} (hv : 0 < v) (h : Spec.IsSRG v k l u m) :
    Utils.assertSrg v k l u = .ok () := by
  rw [assertSrg_iff]
  exact (arr_of_isSRG h).count hv

theorem C31_accepts_graph {V : Type} [Fintype V] [DecidableEq V] (G : SimpleGraph V)
    [DecidableRel G.Adj] {v k l u : ℕ} (hv : 0 < v) (h : G.IsSRGWith v k l u) :
    Utils.assertSrg v k l u = .ok () := by
  rw [assertSrg_iff]
  have σ : Fin v ≃ V := (Fintype.equivFinOfCardEq h.card).symm
  exact (arr_of_srg h σ).count hv

/-- **C31**, complements: a parameter set is accepted iff the complementary one is. -/
theorem C31_complement (v k l u : Int) :
    Utils.assertSrg v k l u = .ok () ↔
      (fun p : Int × Int × Int × Int => Utils.assertSrg p.1 p.2.1 p.2.2.1 p.2.2.2)
        (Utils.complementVklu v k l u) = .ok () := by
  simp only [Utils.complementVklu, assertSrg_iff]
  constructor
  · intro h; linear_combination h
  · intro h; linear_combination h

/-- The empty graph on no vertices has every parameter set; the condition `0 < v` is needed. -/
example : Spec.IsSRG 0 1 1 1 [] ∧ Utils.assertSrg 0 1 1 1 = .error .assertion := by
  refine ⟨?_, by decide +kernel⟩
  rw [isSRG_iff]
  exact ⟨⟨rfl, by simp⟩, by decide, by decide, by decide, by decide, by decide⟩

end TDS
