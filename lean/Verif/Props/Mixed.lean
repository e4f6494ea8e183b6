import Verif.Props.Rows
import Verif.Proof.Relabel
import Mathlib.Tactic.IntervalCases

/-! C79: steps of the search that have a right continuation. -/

namespace TDS

open Finset

/-- Sorting a 0/1 vector inside the classes of equal columns changes no left-hand side. -/
theorem exists_lj {A : Mat} {C : Nat} (hA : ∀ r ∈ A, r.length = C) :
    ∀ (n : Nat) (x : Vec), x.length = C → Bin x →
      (∑ t ∈ range C, (t : Int) * x.getD t 0) ≤ n →
      ∃ y : Vec, y.length = C ∧ Bin y ∧ LJ A C y ∧ ∀ r ∈ A, dot r y = dot r x := by
  intro n
  induction n using Nat.strong_induction_on with
  | _ n ih =>
    intro x hx hb hn
    by_cases hlj : LJ A C x
    · exact ⟨x, hx, hb, hlj, fun _ _ => rfl⟩
    · unfold LJ at hlj
      push Not at hlj
      obtain ⟨i, j, hij, hj, he, hlt⟩ := hlj
      have hbin : ∀ t < C, x.getD t 0 = 0 ∨ x.getD t 0 = 1 := by
        intro t ht
        rw [List.getD_eq_getElem _ _ (by omega)]
        exact hb _ (List.getElem_mem _)
      have hxi : x.getD i 0 = 0 := by
        rcases hbin i (by omega) with h | h
        · exact h
        · rcases hbin j hj with h' | h' <;> omega
      have hxj : x.getD j 0 = 1 := by
        rcases hbin j hj with h' | h' <;> omega
      have hσ : ∀ n, Equiv.swap i j n < C ↔ n < C := by
        intro n
        by_cases h1 : n = i
        · subst h1; simp [hj]; omega
        · by_cases h2 : n = j
          · subst h2; simp [hj]; omega
          · rw [Equiv.swap_apply_of_ne_of_ne h1 h2]
      let y : Vec := (List.range C).map (fun t => x.getD (Equiv.swap i j t) 0)
      have hyl : y.length = C := by simp [y]
      have hy : ∀ t < C, y.getD t 0 = x.getD (Equiv.swap i j t) 0 := by
        intro t ht
        rw [List.getD_eq_getElem _ _ (by omega)]
        simp [y]
      have hyb : Bin y := by
        intro a ha
        obtain ⟨t, ht, rfl⟩ := List.mem_map.1 ha
        exact hbin _ ((hσ t).2 (List.mem_range.1 ht))
      have hw : (∑ t ∈ range C, (t : Int) * y.getD t 0) =
          (∑ t ∈ range C, (t : Int) * x.getD t 0) - ((j : Int) - i) := by
        have e1 : (∑ t ∈ range C, (t : Int) * y.getD t 0) =
            ∑ t ∈ range C, ((Equiv.swap i j t : Nat) : Int) * x.getD t 0 := by
          rw [← sum_perm hσ (fun t => ((Equiv.swap i j t : Nat) : Int) * x.getD t 0)]
          refine Finset.sum_congr rfl (fun t ht => ?_)
          rw [hy t (Finset.mem_range.1 ht), Equiv.swap_apply_self]
        have e2 : (∑ t ∈ range C, (t : Int) * x.getD t 0) -
            (∑ t ∈ range C, ((Equiv.swap i j t : Nat) : Int) * x.getD t 0) = (j : Int) - i := by
          rw [← Finset.sum_sub_distrib, Finset.sum_eq_single j]
          · rw [hxj, Equiv.swap_apply_right]; ring
          · intro t _ ht
            by_cases h1 : t = i
            · subst h1; rw [hxi]; ring
            · rw [Equiv.swap_apply_of_ne_of_ne h1 ht]; ring
          · intro h; exact absurd (Finset.mem_range.2 hj) h
        omega
      have hnn : 0 ≤ ∑ t ∈ range C, (t : Int) * y.getD t 0 := by
        refine Finset.sum_nonneg (fun t ht => ?_)
        have : y.getD t 0 = 0 ∨ y.getD t 0 = 1 := by
          rw [hy t (Finset.mem_range.1 ht)]
          exact hbin _ ((hσ t).2 (Finset.mem_range.1 ht))
        rcases this with h | h <;> rw [h] <;> simp
      obtain ⟨z, h1, h2, h3, h4⟩ := ih (n - 1) (by omega) y hyl hyb (by omega)
      refine ⟨z, h1, h2, h3, fun r hr => (h4 r hr).trans ?_⟩
      rw [dot_eq_sum (hA r hr) hyl, dot_eq_sum (hA r hr) hx, list_sum_range, list_sum_range,
        ← sum_perm hσ (fun t => r.getD t 0 * x.getD t 0)]
      refine Finset.sum_congr rfl (fun t ht => ?_)
      rw [hy t (Finset.mem_range.1 ht)]
      congr 1
      have hrij : r.getD i 0 = r.getD j 0 := by
        obtain ⟨a, ha, rfl⟩ := List.getElem_of_mem hr
        have := congrArg (fun c => c[a]?) he
        simpa [col, ha] using this
      by_cases g1 : t = i
      · subst g1; rw [Equiv.swap_apply_left, hrij]
      · by_cases g2 : t = j
        · subst g2; rw [Equiv.swap_apply_right, hrij]
        · rw [Equiv.swap_apply_of_ne_of_ne g1 g2]

variable {v : Nat} {m : Mat} (h : Spec.Part v m) (h2 : 2 ≤ m.length) (hlt : m.length < v)
  (hv : v ≤ 66) (ha : Spec.Adjacent v m) {v' k l u : Int} (he : vklu m = .ok (v', k, l, u))
  (hu0 : 0 ≤ u) (hu1 : u ≤ 127) {out : List Mat} (hout : advance m = .ok out)

include h h2 hlt hv ha he hu0 hu1 hout

/-- **C79**: if any 0/1 row may follow, the step finds a row that may follow. -/
theorem C79_some {x : Vec} (hx : x.length = v - m.length - 1) (hb : Spec.Bin x)
    (hok : Spec.RowOK k l u m (Spec.nextRow m x)) :
    ∃ m' ∈ out, Spec.RowOK k l u m (m'.getD m.length []) := by
  have hp := vals_of_vklu h2 (by omega) h he hu0 hu1
  obtain ⟨rows, hr⟩ := advance_spec h h2 hlt hv
  rw [hr.eq, Except.ok.injEq] at hout
  subst hout
  obtain ⟨hA, -⟩ := questionOf_rect h h2
  obtain ⟨y, y1, y2, y3, y4⟩ := exists_lj hA _ x hx hb (Int.self_le_toNat _)
  rw [← sat01_iff h h2 hlt (by omega) hp hx] at hok
  have hy : Spec.RowOK k l u m (Spec.nextRow m y) := by
    rw [← sat01_iff h h2 hlt (by omega) hp y1]
    intro p hpm
    rw [y4 p.1 (List.of_mem_zip (a := p.1) (b := p.2) hpm).1]
    exact hok p hpm
  have hmem : y ∈ rows := hr.all ha k l u hp y y1 y2 hy
    ((lj_iff h h2).1 (by rw [questionOf_ncols h h2]; exact y3))
  exact ⟨_, List.mem_map_of_mem hmem, by simpa [List.getD_eq_getElem?_getD] using hy⟩

/-- **C79**, partial: if some 0/1 row may follow and the step finds one row only, then the row found
may follow.  Missing from the full statement: steps that find several rows, see `C79_false`. -/
theorem C79_right_partial {x : Vec} (hx : x.length = v - m.length - 1) (hb : Spec.Bin x)
    (hok : Spec.RowOK k l u m (Spec.nextRow m x)) (h1 : out.length ≤ 1) :
    ∀ m' ∈ out, Spec.RowOK k l u m (m'.getD m.length []) := by
  obtain ⟨m', hm', hr⟩ := C79_some h h2 hlt hv ha he hu0 hu1 hout hx hb hok
  intro m'' hm''
  match out, h1, hm', hm'' with
  | [a], _, hm', hm'' => rw [List.mem_singleton.1 hm'', ← List.mem_singleton.1 hm']; exact hr

omit h h2 hlt hv ha he hu0 hu1 hout

/-- The third row of the pentagon: a 0/1 row may follow, and one row is found. -/
example : Spec.RowOK 2 0 1 [seed0 5 2, seed1 5 2 0] (Spec.nextRow [seed0 5 2, seed1 5 2 0] [0, 1]) ∧
    (advance [seed0 5 2, seed1 5 2 0]).map List.length = .ok 1 := by
  unfold Spec.RowOK
  decide +kernel

/-- The first five rows of a matrix that the search for (13, 6, 2, 3) goes through. -/
def mixedM : Mat :=
  [[0, 1, 1, 1, 1, 1, 1, 0, 0, 0, 0, 0, 0], [1, 0, 1, 1, 0, 0, 0, 1, 1, 1, 0, 0, 0],
   [1, 1, 0, 0, 1, 0, 0, 1, 0, 0, 1, 1, 0], [1, 1, 0, 0, 0, 1, 0, 0, 1, 0, 1, 0, 1],
   [1, 0, 1, 0, 0, 0, 1, 0, 1, 0, 0, 1, 1]]

theorem mixed_part : Spec.Part 13 mixedM := by
  refine ⟨by decide, ?_, by decide⟩
  unfold Spec.Bin
  decide

theorem mixed_adjacent : Spec.Adjacent 13 mixedM := by
  intro i j k hi hij hjk hk
  have hi : 5 < i := hi
  unfold Spec.ColEq
  interval_cases k <;> interval_cases j <;> interval_cases i <;> decide

theorem mixed_advance : advance mixedM =
    .ok [mixedM ++ [[1, 0, 0, 1, 0, 0, 1, 1, 0, 0, 0, 1, 0]],
      mixedM ++ [[1, 0, 0, 1, 0, 0, 1, 0, 0, 1, 1, 1, 0]]] := by
  decide +kernel

/-- The search for (13, 6, 2, 3) reaches the matrix. -/
theorem mixed_reached : seed 13 6 2 3 = .ok (mixedM.take 2) ∧
    ∀ i ∈ [2, 3, 4], ∃ o, advance (mixedM.take i) = .ok o ∧ mixedM.take (i + 1) ∈ o := by
  have key : ∀ i, ((advance (mixedM.take i)).map fun o => decide (mixedM.take (i + 1) ∈ o)) = .ok true →
      ∃ o, advance (mixedM.take i) = .ok o ∧ mixedM.take (i + 1) ∈ o := by
    intro i hi
    cases ho : advance (mixedM.take i) with
    | error e => rw [ho] at hi; cases hi
    | ok o =>
      rw [ho] at hi
      simp only [Except.map, Except.ok.injEq, decide_eq_true_eq] at hi
      exact ⟨o, rfl, hi⟩
  refine ⟨by decide +kernel, fun i hi => key i ?_⟩
  simp only [List.mem_cons, List.not_mem_nil, or_false] at hi
  obtain rfl | rfl | rfl := hi <;> decide +kernel

/-- **C79 is false as stated**: a step of the search for (13, 6, 2, 3) finds one row that may follow
and one that may not.  (`mixed_reached`: the search does take this step.) -/
theorem C79_false : ∃ m m₁ m₂, seed 13 6 2 3 = .ok (m.take 2) ∧
    (∀ i, 2 ≤ i → i < m.length → ∃ o, advance (m.take i) = .ok o ∧ m.take (i + 1) ∈ o) ∧
    Spec.Part 13 m ∧ Spec.Adjacent 13 m ∧ vklu m = .ok (13, 6, 2, 3) ∧
    advance m = .ok [m₁, m₂] ∧ ¬ Spec.RowOK 6 2 3 m (m₁.getD m.length []) ∧
    Spec.RowOK 6 2 3 m (m₂.getD m.length []) := by
  refine ⟨mixedM, _, _, mixed_reached.1, fun i h2 hi => mixed_reached.2 i ?_, mixed_part, mixed_adjacent, by decide +kernel, mixed_advance, ?_, ?_⟩
  · have hi : i < 5 := hi
    interval_cases i <;> decide
  · rintro ⟨h, -⟩
    revert h
    decide
  · unfold Spec.RowOK
    decide

end TDS
