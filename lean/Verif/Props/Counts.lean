import Verif.Props.Rows
import Mathlib.Data.Finset.Max
import Mathlib.Data.Fintype.BigOperators
import Mathlib.Order.Interval.Finset.Nat
import Mathlib.Algebra.BigOperators.Group.Finset.Basic

/-! C69: a continuation is determined by how many ones it has in each class of equal columns. -/

namespace Spec

instance (m : Matrix) (i j : Nat) : Decidable (ColEq m i j) := by unfold ColEq; infer_instance

/-- The unfinished columns that agree with column `i`. -/
def classOf (v : Nat) (m : Matrix) (i : Nat) : Finset Nat :=
  (Finset.Ioo m.length v).filter (fun j => ColEq m i j)

/-- The first columns of the classes. -/
def classes (v : Nat) (m : Matrix) : Finset Nat :=
  (Finset.Ioo m.length v).filter (fun i => ∀ j ∈ classOf v m i, i ≤ j)

/-- Number of ones of `row` in the class of column `i`. -/
def onesIn (v : Nat) (m : Matrix) (row : Row) (i : Nat) : Nat :=
  ((classOf v m i).filter (fun j => row.getD j 0 = 1)).card

end Spec

namespace TDS

open Spec

theorem colEq_refl (m : Mat) (i : Nat) : ColEq m i i := fun _ _ => rfl

theorem classOf_congr {v : Nat} {m : Mat} {i j : Nat} (h : ColEq m i j) :
    classOf v m i = classOf v m j := by
  unfold classOf
  refine Finset.filter_congr (fun x _ => ⟨fun hx => colEq_trans (colEq_symm h) hx,
    fun hx => colEq_trans h hx⟩)

/-- Rows justified to the left with equally many ones in a class agree on this class. -/
theorem ones_le {v : Nat} {m : Mat} {r s : Vec} (hs : LeftJustified v m s)
    (hr : LeftJustified v m r) (hbs : ∀ j, s.getD j 0 = 0 ∨ s.getD j 0 = 1)
    (hbr : ∀ j, r.getD j 0 = 0 ∨ r.getD j 0 = 1) {i : Nat} (h : onesIn v m r i = onesIn v m s i)
    {j : Nat} (hj : j ∈ classOf v m i) (h1 : r.getD j 0 = 1) : s.getD j 0 = 1 := by
  by_contra hc
  have h0 : s.getD j 0 = 0 := (hbs j).resolve_right hc
  have hsub : (classOf v m i).filter (fun j => s.getD j 0 = 1) ⊂
      (classOf v m i).filter (fun j => r.getD j 0 = 1) := by
    rw [Finset.ssubset_iff_of_subset]
    · exact ⟨j, Finset.mem_filter.2 ⟨hj, h1⟩, fun h => hc (Finset.mem_filter.1 h).2⟩
    · intro x hx
      obtain ⟨hx, hx1⟩ := Finset.mem_filter.1 hx
      refine Finset.mem_filter.2 ⟨hx, ?_⟩
      obtain ⟨hxI, hxe⟩ := Finset.mem_filter.1 hx
      obtain ⟨hjI, hje⟩ := Finset.mem_filter.1 hj
      rw [Finset.mem_Ioo] at hxI hjI
      rcases lt_trichotomy x j with hlt | rfl | hlt
      · have := hr x j hxI.1 hlt hjI.2 (colEq_trans (colEq_symm hxe) hje)
        rw [h1] at this
        rcases hbr x with h | h
        · rw [h] at this; omega
        · exact h
      · exact h1
      · have := hs j x hjI.1 hlt hxI.2 (colEq_trans (colEq_symm hje) hxe)
        rw [hx1, h0] at this
        omega
  have := Finset.card_lt_card hsub
  unfold onesIn at h
  omega

theorem class_first {v : Nat} {m : Mat} {i : Nat} (hi : i ∈ Finset.Ioo m.length v) :
    ∃ j ∈ classes v m, ColEq m j i := by
  have hne : (classOf v m i).Nonempty := ⟨i, Finset.mem_filter.2 ⟨hi, colEq_refl m i⟩⟩
  have hmem := Finset.min'_mem _ hne
  obtain ⟨hI, he⟩ := Finset.mem_filter.1 hmem
  refine ⟨_, Finset.mem_filter.2 ⟨hI, fun j hj => Finset.min'_le _ _ ?_⟩, colEq_symm he⟩
  rwa [classOf_congr he]

theorem bin_getD {r : Vec} (h : Bin r) (j : Nat) : r.getD j 0 = 0 ∨ r.getD j 0 = 1 := by
  rw [List.getD_eq_getElem?_getD]
  cases hj : r[j]? with
  | none => exact Or.inl rfl
  | some x => exact h x (List.mem_of_getElem? hj)

theorem rows_eq {v : Nat} {m : Mat} (hp : Part v m) {x y : Vec} (hlt : m.length < v)
    (hx : x.length = v - m.length - 1) (hy : y.length = v - m.length - 1) (hbx : Bin x) (hby : Bin y)
    (hlx : LeftJustified v m (nextRow m x)) (hly : LeftJustified v m (nextRow m y))
    (h : ∀ i ∈ classes v m, onesIn v m (nextRow m x) i = onesIn v m (nextRow m y) i) : x = y := by
  have key : ∀ j < v - m.length - 1, (nextRow m x).getD (m.length + 1 + j) 0 = x.getD j 0 ∧
      (nextRow m y).getD (m.length + 1 + j) 0 = y.getD j 0 := by
    intro j _
    have e : ∀ z : Vec, (nextRow m z).getD (m.length + 1 + j) 0 = z.getD j 0 := by
      intro z
      unfold nextRow
      rw [List.getD_eq_getElem?_getD, List.getElem?_append_right (by simp; omega),
        List.getD_eq_getElem?_getD]
      rw [show m.length + 1 + j - (m.map (fun r => r.getD m.length 0)).length = j + 1 by
        rw [List.length_map]; omega, List.getElem?_cons_succ]
    exact ⟨e x, e y⟩
  have hbx' := bin_getD (nextRow_bin hp hbx)
  have hby' := bin_getD (nextRow_bin hp hby)
  refine List.ext_getElem (by rw [hx, hy]) (fun j h1 h2 => ?_)
  have hj : j < v - m.length - 1 := hx ▸ h1
  have hI : m.length + 1 + j ∈ Finset.Ioo m.length v := by rw [Finset.mem_Ioo]; omega
  obtain ⟨i, hi, he⟩ := class_first hI
  have hmem : m.length + 1 + j ∈ classOf v m i := Finset.mem_filter.2 ⟨hI, he⟩
  have a1 := ones_le hly hlx hby' hbx' (h i hi) hmem
  have a2 := ones_le hlx hly hbx' hby' (h i hi).symm hmem
  rw [(key j hj).1, (key j hj).2] at a1 a2
  have g1 : x.getD j 0 = x[j] := by simp [List.getD_eq_getElem?_getD, h1]
  have g2 : y.getD j 0 = y[j] := by simp [List.getD_eq_getElem?_getD, h2]
  rw [g1, g2] at a1 a2
  rcases hbx _ (List.getElem_mem h1) with b1 | b1 <;> rcases hby _ (List.getElem_mem h2) with b2 | b2
  · rw [b1, b2]
  · exact absurd (a2 b2) (by rw [b1]; decide)
  · exact absurd (a1 b1) (by rw [b2]; decide)
  · rw [b1, b2]

variable {v : Nat} {m : Mat} (h : Part v m) (h2 : 2 ≤ m.length) (hlt : m.length < v) (hv : v ≤ 66)
  (ha : Adjacent v m) {out : List Mat} (hout : advance m = .ok out)

include h h2 hlt hv ha hout

/-- Two continuations whose new rows have equally many ones in each class of equal unfinished columns
are the same. -/
theorem C69_counts {m₁ m₂ : Mat} (hm₁ : m₁ ∈ out) (hm₂ : m₂ ∈ out)
    (he : ∀ i ∈ classes v m,
      onesIn v m (m₁.getD m.length []) i = onesIn v m (m₂.getD m.length []) i) : m₁ = m₂ := by
  rw [advance_eq h h2 hlt hv, Except.ok.injEq] at hout
  subst hout
  obtain ⟨x, rfl, hx, hbx, hlx⟩ := (adv_ext h h2 hlt hv hm₁).ex
  obtain ⟨y, rfl, hy, hby, hly⟩ := (adv_ext h h2 hlt hv hm₂).ex
  have e : ∀ z : Vec, (m ++ [nextRow m z]).getD m.length [] = nextRow m z := by
    intro z; simp [List.getD_eq_getElem?_getD]
  simp only [e] at he
  rw [rows_eq h hlt hx hy hbx hby (hlx ha).1 (hly ha).1 he]

/-- A matrix has at most as many continuations as there are ways to choose a number of ones for each
class of equal unfinished columns. -/
theorem C69_bound : out.length ≤ ∏ i ∈ classes v m, ((classOf v m i).card + 1) := by
  have hnd : out.Nodup := by
    have := hout
    rw [advance_eq h h2 hlt hv, Except.ok.injEq] at this
    subst this
    exact adv_nodup h h2 hlt hv
  rw [← List.toFinset_card_of_nodup hnd]
  have hcard : ((classes v m).pi (fun i => Finset.range ((classOf v m i).card + 1))).card =
      ∏ i ∈ classes v m, ((classOf v m i).card + 1) := by
    rw [Finset.card_pi]
    exact Finset.prod_congr rfl (fun i _ => Finset.card_range _)
  rw [← hcard]
  refine Finset.card_le_card_of_injOn
    (fun (m' : Mat) (i : Nat) (_ : i ∈ classes v m) => onesIn v m (m'.getD m.length []) i) ?_ ?_
  · intro m' _
    refine Finset.mem_coe.2 (Finset.mem_pi.2 (fun i _ => Finset.mem_range.2 ?_))
    exact Nat.lt_succ_of_le (Finset.card_le_card (Finset.filter_subset _ _))
  · intro m₁ hm₁ m₂ hm₂ he
    refine C69_counts h h2 hlt hv ha hout (List.mem_toFinset.1 (Finset.mem_coe.1 hm₁))
      (List.mem_toFinset.1 (Finset.mem_coe.1 hm₂)) (fun i hi => ?_)
    exact congrFun (congrFun he i) hi

omit h h2 hlt hv ha hout

/-- The seed of (10, 6, 3, 4): the unfinished columns 3 to 9 fall into the classes 3-4, 5-6, 7-8, 9, and
its two continuations have 1, 1, 1, 1 and 0, 2, 2, 0 ones in them. -/
example : ∃ m out, seed 10 6 3 4 = .ok m ∧ advance m = .ok out ∧ Part 10 m ∧ Adjacent 10 m ∧
    classes 10 m = {3, 5, 7, 9} ∧ ∏ i ∈ classes 10 m, ((classOf 10 m i).card + 1) = 54 ∧
    out.map (fun m' => [3, 5, 7, 9].map (onesIn 10 m (m'.getD 2 []))) =
      [[1, 1, 1, 1], [0, 2, 2, 0]] := by
  refine ⟨[seed0 10 6, seed1 10 6 3],
    [[seed0 10 6, seed1 10 6 3, [1, 1, 0, 1, 0, 1, 0, 1, 0, 1]],
      [seed0 10 6, seed1 10 6 3, [1, 1, 0, 0, 0, 1, 1, 1, 1, 0]]], by decide +kernel, by decide +kernel,
    ⟨by decide +kernel, ?_, by decide⟩,
    seed_adjacent (by decide) 6 3, by decide +kernel, by decide +kernel, by decide +kernel⟩
  unfold Spec.Bin
  decide +kernel

end TDS
