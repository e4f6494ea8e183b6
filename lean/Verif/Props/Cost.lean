import Verif.Proof.Cost
import Verif.Props.Steps

/-! C55: how much time and memory `solve_question` takes. -/

namespace TDS

/-- Stacks that occur in the `while stack` loop of `solve_question` (/repo/srg/solver.py:193-214),
top first, seen at the head of the loop. -/
inductive Stack (Q₀ : Question) : List Question → Prop
  | init : Stack Q₀ [Q₀]
  | round {Q st outs qs} : Stack Q₀ (Q :: st) → visit Q = .ok (outs, qs) →
      Stack Q₀ (qs.reverse ++ st)

section
variable {v : Nat} {m : Mat} {Q₀ : Question}
variable (hm : Spec.Part v m) (h2 : 2 ≤ m.length) (hlt : m.length < v) (hv : v ≤ 66)
variable (h₀ : fromMatrix m = .ok Q₀)
include hm h2 hlt hv h₀

/-- **C55, memory.**  With `R` rows known, the stack never holds more than `v - R` questions. -/
theorem C55_stack {st : List Question} (h : Stack Q₀ st) : st.length ≤ v - m.length := by
  obtain ⟨hp, hq⟩ := pre_of_fromMatrix hm h2 hlt hv h₀
  have hn : ncols Q₀.A = v - m.length - 1 := by rw [hq]; exact questionOf_ncols hm h2
  have key : StOK (widths Q₀) (ncols Q₀.A) st := by
    induction h with
    | init => exact ⟨by simp [pre_wt hp], Or.inr ⟨hp, rfl⟩, trivial⟩
    | round _ hvis ih => exact ih.step hvis
  have := key.length
  omega

/-- **C55, time.**  The loop ends after fewer than `2 ^ (v - R)` rounds, and returns what
`solve_question` returns. -/
theorem C55_rounds : ∃ rows, solveQuestion Q₀ = .ok rows ∧
    ∀ n, 2 ^ (v - m.length) - 1 ≤ n → solveLoop n [Q₀] = .ok rows := by
  obtain ⟨hp, hq⟩ := pre_of_fromMatrix hm h2 hlt hv h₀
  have hn : ncols Q₀.A = v - m.length - 1 := by rw [hq]; exact questionOf_ncols hm h2
  obtain ⟨ys, h1, -⟩ := solveQuestion_pre hp
  refine ⟨_, h1, fun n hle => ?_⟩
  obtain ⟨N, hN⟩ := solveLoop_eq_tree h1
  obtain ⟨rows, hr⟩ := solveLoop_cost (W := widths Q₀) n [Q₀]
    (by intro Q hQ; rw [List.mem_singleton.1 hQ]; exact Or.inr ⟨hp, rfl⟩) (by
    have e : cost [Q₀] = 2 ^ (wt Q₀ + 1) - 1 := by simp [cost]
    rw [e, pre_wt hp, hn]
    have : v - m.length - 1 + 1 = v - m.length := by omega
    rw [this]; exact hle)
  have h3 := solveLoop_mono (max n N) (Nat.le_max_left _ _) hr
  have h4 := hN (max n N) (Nat.le_max_right _ _)
  rw [h3] at h4
  rw [hr]
  exact h4

end

/-- For (16,6,2,2) the first question is forked into two, and the loop runs exactly three times. -/
example : (seed 16 6 2 2 >>= fromMatrix >>= visit).map (fun p => p.2.length) = .ok 2 ∧
    (seed 16 6 2 2 >>= fromMatrix >>= fun Q => solveLoop 2 [Q]) = .error .fuel ∧
    ((seed 16 6 2 2 >>= fromMatrix >>= fun Q => solveLoop 3 [Q]).map List.length) = .ok 2 := by
  decide +kernel

end TDS
