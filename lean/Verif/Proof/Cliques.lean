import Verif.Proof.Single

/-! With `u = 0` the search completes a clique before it starts the next, and starts each of them
with a row of `k` ones. -/

namespace TDS

open Finset

/-- A row whose column is empty so far starts a new clique; such rows have `k` ones. -/
def FirstSum (k : Int) (m : Mat) : Prop :=
  ∀ R < m.length, (∀ i < R, Spec.ent m i R = 0) → (m.getD R []).sum = k

theorem zero_after {v : Nat} {m : Mat} (h : Spec.Part v m) {R : Nat}
    (hj : ∀ i < m.length, Spec.LeftJustified v (m.take i) (m.getD i []))
    (hR : m.length ≤ R) (hz : ∀ i < m.length, Spec.ent m i R = 0) :
    ∀ i < m.length, ∀ j < v, R < j → Spec.ent m i j = 0 := by
  intro i
  induction i using Nat.strong_induction_on with
  | _ i ih =>
    intro hi j hjv hRj
    have := hj i hi R j (by rw [List.length_take]; omega) hRj hjv (by
      intro r hr
      obtain ⟨t, ht, rfl⟩ := List.getElem_of_mem hr
      rw [List.length_take] at ht
      rw [List.getElem_take]
      have h1 := hz t (by omega)
      have h2 := ih t (by omega) (by omega) j hjv hRj
      unfold Spec.ent at h1 h2
      rw [List.getD_eq_getElem _ _ (by omega : t < m.length)] at h1 h2
      rw [h1, h2])
    have h1 := hz i hi
    unfold Spec.ent at h1 ⊢
    rw [h1] at this
    rcases ent_bin h i j with h2 | h2 <;> unfold Spec.ent at h2 <;> omega

theorem onesFirst_sum (a b : Nat) :
    (List.replicate a (1 : Int) ++ List.replicate b 0).sum = (a : Int) := by
  simp

theorem firstSum_step {v : Nat} {k l : Int} {m m' : Mat} (h : Spec.Part v m) (h2 : 2 ≤ m.length)
    (hlt : m.length < v) (hv : v ≤ 66) (hk : 0 ≤ k) (ha : Spec.Adjacent v m)
    (hva : Vals v k l 0 m)
    (hj : ∀ i < m.length, Spec.LeftJustified v (m.take i) (m.getD i []))
    (hf : FirstSum k m) (hm : m' ∈ adv m) : FirstSum k m' := by
  obtain ⟨rows, hr⟩ := advance_spec h h2 hlt hv
  have hm0 := hm
  rw [hr.adv_eq] at hm
  obtain ⟨x, hx, rfl⟩ := List.mem_map.1 hm
  intro R hR hz
  rw [List.length_append, List.length_singleton] at hR
  by_cases hR' : R < m.length
  · rw [List.getD_append _ _ _ _ hR']
    refine hf R hR' (fun i hi => ?_)
    rw [← hz i hi, ent_append_left (by omega)]
  obtain rfl : R = m.length := by omega
  have hz' : ∀ i < m.length, Spec.ent m i m.length = 0 := by
    intro i hi
    rw [← hz i hi, ent_append_left hi]
  have hza := zero_after h hj (le_refl _) hz'
  have hkn : knownOf m = List.replicate (m.length + 1) 0 := by
    refine List.eq_replicate_iff.2 ⟨knownOf_length m, ?_⟩
    intro a ha
    rcases List.mem_append.1 ha with ha | ha
    · obtain ⟨r, hr', rfl⟩ := List.mem_map.1 ha
      obtain ⟨i, hi, rfl⟩ := List.getElem_of_mem hr'
      have := hz' i hi
      unfold Spec.ent at this
      rwa [List.getD_eq_getElem _ _ hi] at this
    · exact List.mem_singleton.1 ha
  have hks : (knownOf m).sum = 0 := by rw [hkn]; simp
  have hgoal : (m ++ [Spec.nextRow m x]).getD m.length [] = Spec.nextRow m x := by
    simp [List.getD_eq_getElem?_getD]
  rw [hgoal]
  have heq : ∀ i j, m.length < i → i < v → m.length < j → j < v → Spec.ColEq m i j := by
    intro i j hi hiv hj' hjv r hr'
    obtain ⟨t, ht, rfl⟩ := List.getElem_of_mem hr'
    have e1 := hza t ht i hiv hi
    have e2 := hza t ht j hjv hj'
    unfold Spec.ent at e1 e2
    rw [List.getD_eq_getElem _ _ ht] at e1 e2
    rw [e1, e2]
  by_cases hroom : k ≤ ((v - m.length - 1 : Nat) : Int)
  · set x0 : Vec := List.replicate k.toNat 1 ++ List.replicate (v - m.length - 1 - k.toNat) 0
      with hx0
    have hl0 : x0.length = v - m.length - 1 := by
      rw [hx0, List.length_append, List.length_replicate, List.length_replicate]; omega
    have hb0 : Bin x0 := by
      intro a ha
      rcases List.mem_append.1 ha with ha | ha
      · exact Or.inr (List.mem_replicate.1 ha).2
      · exact Or.inl (List.mem_replicate.1 ha).2
    have hs0 : (Spec.nextRow m x0).sum = k := by
      rw [nextRow_sum, hks, hx0, onesFirst_sum]; omega
    have hmem : x0 ∈ rows := by
      refine hr.all ha k l 0 hva x0 hl0 hb0 ⟨hs0, ?_⟩ ?_
      · intro i hi
        rw [if_neg (by rw [hz' i hi]; decide), meet_eq_range]
        apply Finset.sum_eq_zero
        intro t ht
        rw [Finset.mem_range] at ht
        have hlen : (m.getD i []).length = v := by
          rw [List.getD_eq_getElem _ _ hi]
          exact h.rect _ (List.getElem_mem _)
        rw [hlen] at ht
        by_cases hcase : m.length < t
        · have := hza i hi t ht hcase
          unfold Spec.ent at this
          rw [this, zero_mul]
        · have : (Spec.nextRow m x0).getD t 0 = 0 := by
            rw [nextRow_eq]
            change (knownOf m ++ x0).getD t 0 = 0
            rw [List.getD_append _ _ _ _ (by rw [knownOf_length]; omega), hkn]
            simp [List.getD_eq_getElem?_getD, List.getElem?_replicate]
            split <;> rfl
          rw [this, mul_zero]
      · intro i j hi hij hjv _
        obtain ⟨i', rfl⟩ : ∃ i', i = m.length + 1 + i' := ⟨i - m.length - 1, by omega⟩
        obtain ⟨j', rfl⟩ : ∃ j', j = m.length + 1 + j' := ⟨j - m.length - 1, by omega⟩
        rw [nextRow_getD_tail, nextRow_getD_tail, hx0]
        have hval : ∀ t, (List.replicate k.toNat (1 : Int) ++
            List.replicate (v - m.length - 1 - k.toNat) 0).getD t 0 =
            if t < k.toNat then 1 else 0 := by
          intro t
          rw [List.getD_eq_getElem?_getD, List.getElem?_append]
          simp only [List.length_replicate]
          split
          · rename_i ht
            simp [ht]
          · simp only [List.getElem?_replicate]
            split <;> rfl
        rw [hval, hval]
        split_ifs <;> omega
    have hone := adv_single h h2 hlt hv heq
    have hm1 : m ++ [Spec.nextRow m x0] ∈ adv m := by
      rw [hr.adv_eq]
      exact List.mem_map.2 ⟨x0, hmem, rfl⟩
    have := List.append_cancel_left (length_le_one hone hm0 hm1)
    rw [List.cons.injEq] at this
    rw [this.1, hs0]
  · rw [adv_overfull h h2 hlt hv (by rw [hva.hk, hks]; omega)] at hm0
    simp at hm0

/-- All rows that start a clique have `k` ones. -/
theorem output_firstSum {v : Nat} {k l : Int} (h : Good v k l 0) {out : List Mat}
    (ho : IsOutput v k l 0 out) : ∀ m ∈ out, FirstSum k m := by
  have h1 := h.l0
  have h2 := h.lk
  have h3 := h.kv
  have hv3 := h.v3
  intro m hm
  obtain ⟨-, -, -, -, -, hf⟩ := ho.induction h.v3 h.v66
    (I := fun m => Spec.Adjacent v m ∧ Vals v k l 0 m ∧
      (∀ R < m.length, Spec.LeftJustified v (m.take R) (m.getD R [])) ∧ FirstSum k m)
    ⟨seed_adjacent (by omega) k l, h.vals, seed_justified h.v3 (by omega) h1 (by omega), by
      intro R hR hz
      simp only [List.length_cons, List.length_nil] at hR
      obtain rfl | rfl : R = 0 ∨ R = 1 := by omega
      · exact seed0_sum (by omega) h3
      · have := hz 0 (by omega)
        change (seed0 v k).getD 1 0 = 0 at this
        rw [seed0_getD (by omega), pyIdx_nonneg (by omega)] at this
        rw [if_pos (by omega)] at this
        simp at this⟩ (by
      intro m hp h2' hlt ⟨ha, hva, hj, hf⟩ m' hm'
      refine ⟨adjacent_adv hp h2' hlt h.v66 ha hm', ?_,
        justified_step hp h2' hlt h.v66 ha hj hm',
        firstSum_step hp h2' hlt h.v66 (by omega) ha hva hj hf hm'⟩
      obtain ⟨x, rfl, -, -, -⟩ := (adv_ext hp h2' hlt h.v66 hm').ex
      exact vals_snoc h2' _ hva) m hm
  exact hf

/-- With `u = 0` adjacency in a result is transitive. -/
theorem pairLE_trans {v : Nat} {k l : Int} {m : Mat} (ha : Spec.IsAdj v m) (hp : PairLE k l 0 m)
    {i j t : Nat} (hi : i < v) (hj : j < v) (ht : t < v) (hij : i ≠ j)
    (h1 : Spec.ent m i t = 1) (h2 : Spec.ent m j t = 1) : Spec.ent m i j = 1 := by
  have key : ∀ i j, i < v → j < v → i < j → Spec.ent m i t = 1 → Spec.ent m j t = 1 →
      Spec.ent m i j = 1 := by
    intro i j hi hj hij h1 h2
    by_contra hne
    have hle := hp.meet i j hij (by rw [ha.square]; exact hj)
    rw [if_neg hne, meet_eq_range, (isAdj_row ha hi).2] at hle
    have : Spec.ent m i t * Spec.ent m j t ≤
        ∑ s ∈ range v, (m.getD i []).getD s 0 * (m.getD j []).getD s 0 :=
      Finset.single_le_sum (f := fun s => (m.getD i []).getD s 0 * (m.getD j []).getD s 0)
        (fun s _ => by
          have e1 := ent_bin ha.part i s
          have e2 := ent_bin ha.part j s
          unfold Spec.ent at e1 e2
          rcases e1 with e1 | e1 <;> rcases e2 with e2 | e2 <;> rw [e1, e2] <;> decide)
        (Finset.mem_range.2 ht)
    rw [h1, h2] at this
    omega
  rcases Nat.lt_or_ge i j with h | h
  · exact key i j hi hj h h1 h2
  · rw [ha.sym.sym i (by rw [ha.square]; exact hi) j (by rw [ha.square]; exact hj)]
    exact key j i hj hi (by omega) h2 h1

/-- Every row of a result has `k` ones. -/
theorem clique_sums {v : Nat} {k l : Int} {m : Mat} (ha : Spec.IsAdj v m) (hp : PairLE k l 0 m)
    (hf : FirstSum k m) : ∀ r ∈ m, r.sum = k := by
  have hsym : ∀ i < v, ∀ j < v, Spec.ent m i j = Spec.ent m j i := fun i hi j hj =>
    ha.sym.sym i (by rw [ha.square]; exact hi) j (by rw [ha.square]; exact hj)
  have hdiag : ∀ i < v, Spec.ent m i i = 0 := fun i hi =>
    ha.sym.diag i (by rw [ha.square]; exact hi)
  have hbin := ent_bin ha.part
  have hsum : ∀ i < v, (m.getD i []).sum = ∑ t ∈ range v, Spec.ent m i t := by
    intro i hi
    rw [sum_eq_range, (isAdj_row ha hi).2]; rfl
  have main : ∀ R < v, (m.getD R []).sum = k := by
    intro R hR
    have hex : ∃ i, i = R ∨ Spec.ent m R i = 1 := ⟨R, Or.inl rfl⟩
    classical
    obtain ⟨i, hi, hmin⟩ : ∃ i, (i = R ∨ Spec.ent m R i = 1) ∧
        ∀ j < i, ¬ (j = R ∨ Spec.ent m R j = 1) :=
      ⟨Nat.find hex, Nat.find_spec hex, fun j hj => Nat.find_min hex hj⟩
    have hiR : i ≤ R := by
      by_contra hc
      exact hmin R (by omega) (Or.inl rfl)
    have hiv : i < v := by omega
    have hfirst : (m.getD i []).sum = k := by
      refine hf i (by rw [ha.square]; exact hiv) (fun j hj => ?_)
      rcases hbin j i with h0 | h1
      · exact h0
      · exfalso
        rcases hi with rfl | hi
        · exact hmin j hj (Or.inr (by rw [hsym _ hR j (by omega)]; exact h1))
        · refine hmin j hj (Or.inr ?_)
          exact pairLE_trans ha hp hR (by omega) hiv (by omega) hi h1
    rcases hi with rfl | hi
    · exact hfirst
    · have hne : i ≠ R := by
        rintro rfl
        rw [hdiag i hiv] at hi
        simp at hi
      rw [← hfirst, hsum R hR, hsum i hiv]
      have hpt : ∀ t ∈ range v, Spec.ent m R t + (if t = R then 1 else 0) =
          Spec.ent m i t + (if t = i then 1 else 0) := by
        intro t ht
        rw [Finset.mem_range] at ht
        have hi' : Spec.ent m i R = 1 := by rw [hsym i hiv R hR]; exact hi
        by_cases e1 : t = R
        · subst e1
          rw [hdiag t hR, hi', if_pos rfl, if_neg (Ne.symm hne)]; rfl
        by_cases e2 : t = i
        · subst e2
          rw [hdiag t hiv, hi, if_pos rfl, if_neg e1]; rfl
        rw [if_neg e1, if_neg e2]
        have c1 : Spec.ent m R t = 1 → Spec.ent m i t = 1 := fun h =>
          pairLE_trans ha hp hiv ht hR (Ne.symm e2) hi' (by rw [hsym t ht R hR]; exact h)
        have c2 : Spec.ent m i t = 1 → Spec.ent m R t = 1 := fun h =>
          pairLE_trans ha hp hR ht hiv (Ne.symm e1) hi (by rw [hsym t ht i hiv]; exact h)
        rcases hbin R t with a | a <;> rcases hbin i t with b | b <;> rw [a, b]
        · rw [a] at c2; exact absurd (c2 b) (by decide)
        · rw [b] at c1; exact absurd (c1 a) (by decide)
      have hs := Finset.sum_congr rfl hpt
      rw [Finset.sum_add_distrib, Finset.sum_add_distrib, Finset.sum_ite_eq', Finset.sum_ite_eq',
        if_pos (Finset.mem_range.2 hR), if_pos (Finset.mem_range.2 hiv)] at hs
      omega
  intro r hr
  obtain ⟨i, hi, rfl⟩ := List.getElem_of_mem hr
  rw [← main i (by rw [← ha.square]; exact hi), List.getD_eq_getElem _ _ hi]

end TDS
