import Verif.SpecG
import Verif.Props.Search
import Verif.Proof.Arrays

/-! Which strongly regular matrices the search returns. -/

namespace TDS

open Finset

theorem ent_zero_one {v : Nat} {m : Mat} (h : Spec.Part v m) (i j : Nat) :
    Spec.ent m i j = 0 ∨ Spec.ent m i j = 1 := by
  unfold Spec.ent
  by_cases hi : i < m.length
  · rw [List.getD_eq_getElem _ _ hi]
    by_cases hj : j < (m[i]).length
    · rw [List.getD_eq_getElem _ _ hj]
      exact h.bin _ (List.getElem_mem hi) _ (List.getElem_mem hj)
    · rw [List.getD_eq_default _ _ (by omega)]; simp
  · rw [List.getD_eq_default (l := m) _ (by omega)]; simp

theorem arr_of_isSRG {v : Nat} {k l u : Int} {m : Mat} (h : Spec.IsSRG v k l u m) :
    Arr v k l u (Spec.ent m) := by
  obtain ⟨-, -, h2, h3, h4, h5⟩ := isSRG_iff.1 h
  refine ⟨ent_zero_one h.adj.part, fun i hi => h2 ⟨i, hi⟩, fun i hi j hj => h3 ⟨i, hi⟩ ⟨j, hj⟩, ?_, ?_⟩
  · intro i hi
    rw [Finset.sum_range]
    exact h4 ⟨i, hi⟩
  · intro i hi j hj hij
    rw [Finset.sum_range]
    exact h5 ⟨i, hi⟩ ⟨j, hj⟩ (fun e => hij (by simpa using e))

theorem matOf_ent {v : Nat} {m : Mat} (h : Spec.Square v m) : matOf v (Spec.ent m) v = m :=
  square_ext (matOf_square v _) h (fun _ hi _ hj => ent_matOf hi hj)

theorem matOf_take {v : Nat} {M : Nat → Nat → Int} {R : Nat} (hR : R ≤ v) :
    (matOf v M v).take R = matOf v M R := by
  unfold matOf
  rw [← List.map_take, List.take_range, Nat.min_eq_left hR]

theorem Justified.arr {v : Nat} {m : Mat} (hs : Spec.Square v m) (h : Spec.Justified v m) :
    ∀ R < v, Spec.LeftJustified v (matOf v (Spec.ent m) R) (rowAt v (Spec.ent m) R) := by
  intro R hR
  have := h R hR
  rw [← matOf_ent hs, matOf_take hR.le, matOf_getD hR] at this
  exact this

theorem adv_self {v : Nat} {k l u : Int} {M : Nat → Nat → Int} (hv : v ≤ 66) {R : Nat}
    (h2 : 2 ≤ R) (hR : R < v) (h : Arr v k l u M) (hadj : Spec.Adjacent v (matOf v M R))
    (hp : Vals v k l u (matOf v M R))
    (hlj : Spec.LeftJustified v (matOf v M R) (rowAt v M R)) :
    matOf v M (R + 1) ∈ adv (matOf v M R) := by
  have hpart := matOf_part h (R := R) (by omega)
  obtain ⟨rows, hrows⟩ := advance_spec hpart (by simpa using h2) (by simpa using hR) hv
  rw [hrows.adv_eq, matOf_succ]
  have hnr := rowAt_eq_nextRow h hR
  refine List.mem_map.2 ⟨tailAt v M R, ?_, by rw [hnr]⟩
  refine hrows.all hadj k l u hp _ (by simp [tailAt]) ?_ (by rw [← hnr]; exact rowOK_rowAt h hR)
    (by rw [← hnr]; exact hlj)
  intro x hx
  obtain ⟨t, -, rfl⟩ := List.mem_map.1 hx
  exact h.bin _ _

theorem levels_self {v : Nat} {k l u : Int} (hv : v ≤ 66) {M : Nat → Nat → Int}
    (h : Arr v k l u M) (hlj : ∀ R < v, Spec.LeftJustified v (matOf v M R) (rowAt v M R)) :
    ∀ (n R : Nat) (lst : List Mat), 2 ≤ R → R + n ≤ v → Spec.Adjacent v (matOf v M R) →
    Vals v k l u (matOf v M R) → matOf v M R ∈ lst → matOf v M (R + n) ∈ nextLevel^[n] lst := by
  intro n
  induction n with
  | zero => intro R lst _ _ _ _ hm; exact hm
  | succ n ih =>
    intro R lst h2 hR hadj hp hm
    rw [Function.iterate_succ_apply]
    have := ih (R + 1) (nextLevel lst) (by omega) (by omega)
      (by rw [matOf_succ]; exact adjacent_snoc hadj (hlj R (by omega)))
      (mat_append_vals h2 hp)
      (mem_nextLevel.2 ⟨_, hm, adv_self hv h2 (by omega) h hadj hp (hlj R (by omega))⟩)
    rwa [show R + 1 + n = R + (n + 1) by omega] at this

/-- Justified strongly regular matrices are found. -/
theorem mem_of_justified {v : Nat} {k l u : Int} {m : Mat} (h : Spec.IsSRG v k l u m)
    (hj : Spec.Justified v m) (hv : 3 ≤ v) (hv' : v ≤ 66) (hkl : 0 < k ∨ l = 0) :
    m ∈ nextLevel^[v - 2] [[seed0 v k, seed1 v k l]] := by
  have hs : Spec.Square v m := ⟨h.adj.square, h.adj.part.rect⟩
  have ha := arr_of_isSRG h
  obtain ⟨u', h', hdeg, hu0, hu1⟩ : ∃ u', Arr v k l u' (Spec.ent m) ∧
      ((v : Int) = k + 1 → u' = 0) ∧ 0 ≤ u' ∧ u' ≤ 127 := by
    by_cases hk : (v : Int) = k + 1
    · exact ⟨0, ha.norm hk, fun _ => rfl, by omega, by omega⟩
    · have := ha.u_bounds (by omega) hk
      exact ⟨u, ha, fun e => absurd e hk, by omega, by omega⟩
  have hlj := Justified.arr hs hj
  obtain ⟨e1, hu⟩ := rowAt1_seed h' (by omega) hkl (hlj 0 (by omega)) (hlj 1 (by omega))
  have e0 := rowAt0_seed h' (by omega) (hlj 0 (by omega))
  have e2 : matOf v (Spec.ent m) 2 = [seed0 v k, seed1 v k l] := by
    show [rowAt v (Spec.ent m) 0, rowAt v (Spec.ent m) 1] = _
    rw [e0, e1]
  have hp := (params_matOf h' (by omega) hu (h'.count (by omega)) hdeg hu0 hu1).vals
    (matOf_part h' (by omega)) (by simp) hv'
  have := levels_self hv' h' hlj (v - 2) 2 [[seed0 v k, seed1 v k l]] (le_refl 2) (by omega)
    (by rw [e2]; exact seed_adjacent (by omega) k l) hp (by rw [e2]; simp)
  rwa [show 2 + (v - 2) = v by omega, matOf_ent hs] at this

/-- The rows below the seed are justified. -/
theorem justified_step {v : Nat} {m m' : Mat} (h : Spec.Part v m) (h2 : 2 ≤ m.length)
    (hlt : m.length < v) (hv : v ≤ 66) (ha : Spec.Adjacent v m)
    (hj : ∀ R < m.length, Spec.LeftJustified v (m.take R) (m.getD R [])) (hm : m' ∈ adv m) :
    ∀ R < m'.length, Spec.LeftJustified v (m'.take R) (m'.getD R []) := by
  obtain ⟨x, rfl, -, -, hx⟩ := (adv_ext h h2 hlt hv hm).ex
  intro R hR
  rw [List.length_append, List.length_singleton] at hR
  by_cases hR' : R < m.length
  · have := hj R hR'
    rw [List.take_append_of_le_length hR'.le, List.getD_eq_getElem?_getD,
      List.getElem?_append_left hR', ← List.getD_eq_getElem?_getD]
    exact this
  · obtain rfl : R = m.length := by omega
    rw [List.take_left, List.getD_eq_getElem?_getD, List.getElem?_append_right (le_refl _),
      Nat.sub_self]
    exact (hx ha).1

theorem seed_justified {v : Nat} (hv : 3 ≤ v) {k l : Int} (hk : 0 ≤ k) (hl : 0 ≤ l) (hlk : l ≤ k) :
    ∀ R < 2, Spec.LeftJustified v ([seed0 v k, seed1 v k l].take R)
      ([seed0 v k, seed1 v k l].getD R []) := by
  intro R hR
  obtain rfl | rfl : R = 0 ∨ R = 1 := by omega
  · intro i j hi hij hj _
    show (seed0 v k).getD j 0 ≤ (seed0 v k).getD i 0
    simp only [List.take_zero, List.length_nil] at hi
    rw [seed0_getD hj, seed0_getD (by omega)]
    split_ifs <;> omega
  · intro i j hi hij hj he
    show (seed1 v k l).getD j 0 ≤ (seed1 v k l).getD i 0
    have hi' : 1 < i := hi
    have := he (seed0 v k) (by simp)
    rw [seed0_getD hj, seed0_getD (by omega), pyIdx_nonneg (by omega)] at this
    rw [seed1_getD hj (by omega) (by omega), seed1_getD (by omega) (by omega) (by omega),
      pyIdx_nonneg (by omega), pyIdx_nonneg (by omega), pyIdx_nonneg (by omega)]
    split_ifs at this ⊢ <;> omega

/-- Every result is justified. -/
theorem output_justified {v : Nat} {k l u : Int} (hv : 3 ≤ v) (hv' : v ≤ 66) (hk : 0 ≤ k)
    (hl : 0 ≤ l) (hlk : l ≤ k) {out : List Mat} (ho : IsOutput v k l u out) :
    ∀ m ∈ out, Spec.Justified v m := by
  have := ho.induction hv hv' (I := fun m => Spec.Adjacent v m ∧
      ∀ R < m.length, Spec.LeftJustified v (m.take R) (m.getD R []))
    ⟨seed_adjacent (by omega) k l, seed_justified hv hk hl hlk⟩
    (fun m hp h2 hlt hI m' hm' => ⟨adjacent_adv hp h2 hlt hv' hI.1 hm',
      justified_step hp h2 hlt hv' hI.1 hI.2 hm'⟩)
  intro m hm
  obtain ⟨-, hl, -, hj⟩ := this m hm
  rw [hl] at hj
  exact hj

theorem Arr.bounds {v : Nat} {k l u : Int} {M : Nat → Nat → Int} (h : Arr v k l u M) (hv : 0 < v)
    (hkl : 0 < k ∨ l = 0) : 0 ≤ k ∧ 0 ≤ l ∧ l ≤ k := by
  have hk : 0 ≤ k := by
    rw [← h.deg 0 hv]
    exact Finset.sum_nonneg (fun t _ => h.nonneg 0 t)
  rcases hkl with hk' | hl
  · obtain ⟨t, ht, h1⟩ : ∃ t < v, M 0 t = 1 := by
      by_contra hno
      push Not at hno
      have := h.deg 0 hv
      rw [Finset.sum_eq_zero (fun t ht => (h.bin 0 t).resolve_right
        (hno t (Finset.mem_range.1 ht)))] at this
      omega
    have hne : 0 ≠ t := by
      rintro rfl
      rw [h.diag 0 hv] at h1
      omega
    have hi := h.inter 0 hv t ht hne
    rw [if_pos h1] at hi
    refine ⟨hk, ?_, ?_⟩
    · rw [← hi]
      exact Finset.sum_nonneg (fun s _ => mul_nonneg (h.nonneg 0 s) (h.nonneg t s))
    · rw [← hi, ← h.deg 0 hv]
      apply Finset.sum_le_sum
      intro s _
      have := h.nonneg 0 s
      have := h.le_one t s
      nlinarith
  · omega

end TDS
