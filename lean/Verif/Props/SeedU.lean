import Verif.Props.Checked
import Verif.Props.Deficit
import Verif.Props.Utils

/-! C63: the parameter `u` given to `_seed` is not used. -/

namespace TDS

open Finset

/-- **C63.**  `_seed` does not use its argument `u`, so neither does the search. -/
theorem C63_u_unused (v k l u u' : Int) : seed v k l u = seed v k l u' := rfl

section
variable {v : Nat} {k l : Int} (hv66 : v ≤ 66) (hl : 0 ≤ l) (hlk : l < k) (hkv : k + 1 < v)
  (hroom : 2 * k - l ≤ v)
include hv66 hl hlk hkv hroom

/-- The value of `u` that the search reads off the seed: the quotient rounded down. -/
theorem vals_floor :
    Vals v k l (k * (k - l - 1) / ((v : Int) - k - 1)) [seed0 v k, seed1 v k l] := by
  have hp := seed_part (v := v) (by omega) k l
  have h0 : kOf [seed0 v k, seed1 v k l] = k := seed0_sum (by omega) (by omega)
  have h1 : lOf [seed0 v k, seed1 v k l] = l := by
    unfold lOf
    have : dot (seed0 v k) (seed1 v k l) = l := by
      rw [← meet_eq_dot (by rw [seed0_length, seed1_length])]
      exact seed_meet hl hlk (by omega) hroom
    show i8 (dot (seed0 v k) (seed1 v k l)) = l
    rw [this, i8_of_range (by omega) (by omega)]
  have hpos : 0 < (v : Int) - k - 1 := by omega
  have hnum : 0 ≤ k * (k - l - 1) := mul_nonneg (by omega) (by omega)
  refine ⟨h0, h1, ?_, hl, Int.ediv_nonneg hnum hpos.le, ?_⟩
  · unfold uOf
    rw [h0, h1, part_ncols hp (by simp), Int.fdiv_eq_ediv_of_nonneg _ hpos.le]
  · have : k * (k - l - 1) / ((v : Int) - k - 1) ≤ k := by
      refine Int.ediv_le_of_le_mul hpos ?_
      exact mul_le_mul_of_nonneg_left (by omega) (by omega)
    omega

/-- The last row of a result, whatever `u` is given. -/
theorem output_last_floor {u : Int} {out : List Mat} (ho : IsOutput v k l u out) : ∀ m ∈ out,
    Spec.RowOK k l (k * (k - l - 1) / ((v : Int) - k - 1)) (m.take (v - 1)) (m.getD (v - 1) []) := by
  intro m hm
  obtain ⟨-, h2, -, h3⟩ := ho.induction (by omega) hv66
    (I := fun m => Vals v k l (k * (k - l - 1) / ((v : Int) - k - 1)) m ∧
      (m.length = v → Spec.RowOK k l (k * (k - l - 1) / ((v : Int) - k - 1)) (m.take (v - 1))
        (m.getD (v - 1) [])))
    ⟨vals_floor hv66 hl hlk hkv hroom, by intro e; simp at e; omega⟩ (by
      intro m hp h2 hlt ⟨hva, _⟩ m' hm'
      obtain ⟨x, hx, -⟩ := (adv_ext hp h2 hlt hv66 hm').ex
      refine ⟨by rw [hx]; exact vals_snoc h2 _ hva, ?_⟩
      intro e
      have e' : m.length + 1 = v := by rw [hx] at e; simpa using e
      have := last_row_exact hp h2 e' hv66 hva hm'
      have e1 : m'.take (v - 1) = m := by
        rw [hx, show v - 1 = m.length by omega, List.take_append_of_le_length (le_refl _),
          List.take_length]
      rw [e1, show v - 1 = m.length by omega]
      exact this) m hm
  exact h3 h2

/-- **C63.**  In every result the neighbours of the last vertex together lack as many neighbours as
the division of `k (k - l - 1)` by `v - k - 1` leaves over.  So if it leaves a remainder, no result
is regular of degree `k`. -/
theorem C63_remainder {u : Int} {out : List Mat} (ho : IsOutput v k l u out) : ∀ m ∈ out,
    ∑ t ∈ range v, Spec.ent m (v - 1) t * (k - Spec.deg m t) =
      k * (k - l - 1) % ((v : Int) - k - 1) := by
  intro m hm
  have ha := (output_seeds (by omega) hv66 hl hlk ho m hm).1
  obtain ⟨h1, h2⟩ := output_last_floor hv66 hl hlk hkv hroom ho m hm
  set q := k * (k - l - 1) / ((v : Int) - k - 1) with hq
  have hz : v - 1 < v := by omega
  have hlen : (m.take (v - 1)).length = v - 1 := by
    rw [List.length_take, ha.square]; omega
  have hw := walks ha hz l q
  have hlack : ∑ j ∈ (range v).erase (v - 1), Spec.lack l q m (v - 1) j = 0 := by
    refine Finset.sum_eq_zero (fun j hj => ?_)
    rw [Finset.mem_erase, Finset.mem_range] at hj
    have hx := h2 j (by rw [hlen]; omega)
    have e : (m.take (v - 1)).getD j [] = m.getD j [] := by
      rw [List.getD_eq_getElem?_getD, List.getElem?_take, if_pos (by omega),
        List.getD_eq_getElem?_getD]
    unfold Spec.ent at hx
    rw [hlen, e] at hx
    change _ = if Spec.ent m j (v - 1) = 1 then l else q at hx
    unfold Spec.lack
    rw [meet_comm (by rw [(isAdj_row ha hz).2, (isAdj_row ha hj.2).2]), hx,
      ha.sym.sym (v - 1) (by rw [ha.square]; exact hz) j (by rw [ha.square]; exact hj.2)]
    omega
  have hdk : Spec.deg m (v - 1) = k := h1
  have hmod := Int.emod_add_mul_ediv (k * (k - l - 1)) ((v : Int) - k - 1)
  rw [← hq] at hmod
  have hdeg := deg_eq_sum ha hz
  rw [hdk] at hdeg
  have hexp : ∑ t ∈ range v, Spec.ent m (v - 1) t * (k - Spec.deg m t) =
      k * k - ∑ t ∈ range v, Spec.ent m (v - 1) t * Spec.deg m t := by
    rw [Finset.sum_congr rfl (fun t _ => mul_sub (Spec.ent m (v - 1) t) k (Spec.deg m t)),
      Finset.sum_sub_distrib, ← Finset.sum_mul, ← hdeg]
  rw [hexp]
  rw [hlack, hdk] at hw
  linarith

/-- **C63.**  With the check of C62 the search returns, for whatever `u` is given, exactly the
justified strongly regular matrices for the rounded quotient, and nothing if the division leaves a
remainder. -/
theorem C63_checked (u : Int) : ∃ outC, (seed v k l u >>= solveC) = .ok outC ∧
    (∀ m, m ∈ outC ↔ Spec.IsSRG v k l (k * (k - l - 1) / ((v : Int) - k - 1)) m ∧
      Spec.Justified v m) ∧
    (¬ ((v : Int) - k - 1) ∣ k * (k - l - 1) → outC = []) := by
  have ho : IsOutput v k l (k * (k - l - 1) / ((v : Int) - k - 1)) _ :=
    ⟨_, seed_eq (by omega) k l _, solve_seed (by omega) hv66 k l⟩
  have hmem : ∀ m, m ∈ (nextLevel^[v - 2] [[seed0 v k, seed1 v k l]]).filter
      (allOK k l (k * (k - l - 1) / ((v : Int) - k - 1))) ↔
      Spec.IsSRG v k l (k * (k - l - 1) / ((v : Int) - k - 1)) m ∧ Spec.Justified v m := by
    intro m
    rw [List.mem_filter]
    constructor
    · rintro ⟨h1, h2⟩
      obtain ⟨hadj, htake⟩ := output_seeds (by omega) hv66 hl hlk ho m h1
      have hs := srg_of_allOK hl hlk (by omega) hroom hadj htake h2
      exact ⟨hs, (C44_exact (by omega) hv66 (Or.inl (by omega)) ho hs).1 h1⟩
    · rintro ⟨hs, hj⟩
      exact ⟨(C44_exact (by omega) hv66 (Or.inl (by omega)) ho hs).2 hj, allOK_of_srg hs⟩
  refine ⟨_, ?_, hmem, ?_⟩
  · rw [seed_eq (by omega), ok_bind,
      solveC_eq (by omega) hv66 (vals_floor hv66 hl hlk hkv hroom)]
  · intro hd
    rw [List.eq_nil_iff_forall_not_mem]
    intro m hm
    have := (arr_of_isSRG ((hmem m).1 hm).1).count (by omega)
    exact hd ⟨_, this.symm⟩

end

/-- Non-vacuity: parameters that leave a remainder, for which also the search in /repo returns
nothing, and a search that returns the pentagon although the given `u` is wrong. -/
example : ¬ ((8 : Int) - 4 - 1) ∣ 4 * (4 - 1 - 1) ∧ (seed 8 4 1 2 >>= solve) = .ok [] ∧
    (seed 5 2 0 77 >>= solve).map List.length = .ok 1 :=
  ⟨by decide, by decide +kernel, by decide +kernel⟩

end TDS
