import Verif.Model.Check
import Verif.Proof.Heap
import Verif.Props.Steps

/-! C43: the internal consistency check never fails, and `==` is equality. -/

namespace TDS

theorem arrayEq1_iff {a b : Vec} : arrayEq1 a b = true ↔ a = b := by
  unfold arrayEq1
  rw [Bool.and_eq_true, beq_iff_eq]
  constructor
  · rintro ⟨hl, h⟩
    induction a generalizing b with
    | nil =>
      cases b with
      | nil => rfl
      | cons _ _ => simp at hl
    | cons x a ih =>
      cases b with
      | nil => simp at hl
      | cons y b =>
        simp only [List.zip_cons_cons, List.all_cons, Bool.and_eq_true, beq_iff_eq] at h
        rw [h.1, ih (by simpa using hl) h.2]
  · rintro rfl
    refine ⟨rfl, ?_⟩
    induction a with
    | nil => rfl
    | cons x a ih => simpa using ih

theorem arrayEq2_iff {A B : Mat} (hA : ∀ r ∈ A, r.length = ncols A) (hB : ∀ r ∈ B, r.length = ncols B) :
    arrayEq2 A B = true ↔ A = B := by
  constructor
  · intro h
    unfold arrayEq2 at h
    rw [Bool.and_eq_true, Bool.and_eq_true, beq_iff_eq, beq_iff_eq] at h
    obtain ⟨⟨hl, hn⟩, h⟩ := h
    rw [hn] at hA
    generalize ncols B = n at hA hB
    clear hn
    induction A generalizing B with
    | nil =>
      cases B with
      | nil => rfl
      | cons _ _ => simp at hl
    | cons x a ih =>
      cases B with
      | nil => simp at hl
      | cons y b =>
        simp only [List.zip_cons_cons, List.all_cons, Bool.and_eq_true] at h
        have e : x = y := arrayEq1_iff.1 (by
          unfold arrayEq1
          rw [Bool.and_eq_true, beq_iff_eq, hA x (by simp), hB y (by simp)]
          exact ⟨rfl, h.1⟩)
        rw [e, ih h.2 (by simpa using hl) (fun r hr => hA r (by simp [hr]))
          (fun r hr => hB r (by simp [hr]))]
  · rintro rfl
    unfold arrayEq2
    rw [Bool.and_eq_true, Bool.and_eq_true, beq_iff_eq, beq_iff_eq, List.all_eq_true]
    refine ⟨⟨rfl, rfl⟩, ?_⟩
    intro p hp
    obtain ⟨i, hi, rfl⟩ := List.mem_iff_getElem.1 hp
    rw [List.getElem_zip]
    have := (arrayEq1_iff (a := A[i]'(by simpa using hi))).2 rfl
    unfold arrayEq1 at this
    rw [Bool.and_eq_true] at this
    exact this.2

theorem ansEq_iff {a b : Answer} : a.pyEq b = true ↔ a = b := by
  unfold Answer.pyEq
  rcases a with ⟨v, l, n⟩
  rcases b with ⟨v', l', n'⟩
  simp only [Answer.mk.injEq]
  by_cases h1 : v = v'
  · by_cases h2 : l = l'
    · by_cases h3 : n = n'
      · simp [h1, h2, h3, arrayEq1_iff.2]
      · simp [h1, h2, h3, arrayEq1_iff.2]
    · have : arrayEq1 l l' = false := by
        rw [Bool.eq_false_iff]; exact fun h => h2 (arrayEq1_iff.1 h)
      simp [h2, this]
  · have : arrayEq1 v v' = false := by
      rw [Bool.eq_false_iff]; exact fun h => h1 (arrayEq1_iff.1 h)
    simp [h1, this]

/-- **C43, comparison.**  `Q == R` holds exactly for questions with the same contents. -/
theorem C43_eq {Q R : Question} (hQ : ∀ r ∈ Q.A, r.length = ncols Q.A)
    (hR : ∀ r ∈ R.A, r.length = ncols R.A) : Q.pyEq R = true ↔ Q = R := by
  have e : Q.pyEq R = (arrayEq2 Q.A R.A && arrayEq1 Q.b R.b && (Q.quota == R.quota) &&
      arrayEq1 Q.bounds R.bounds && Q.ans.pyEq R.ans) := by
    unfold Question.pyEq
    cases arrayEq2 Q.A R.A <;> cases arrayEq1 Q.b R.b <;> cases h : Q.quota == R.quota <;>
      cases arrayEq1 Q.bounds R.bounds <;> cases Q.ans.pyEq R.ans <;> simp [bne, h]
  rw [e]
  simp only [Bool.and_eq_true, arrayEq2_iff hQ hR, arrayEq1_iff, beq_iff_eq, ansEq_iff]
  rcases Q with ⟨A, b, q, bd, a⟩
  rcases R with ⟨A', b', q', bd', a'⟩
  simp only [Question.mk.injEq]
  tauto

/-- What the decorator checked, with the invariant, is what `_invariant_check` asserts. -/
theorem invariantCheck_ok {W : Vec} {Q : Question} (h : Inv W Q) (hc : checkAfter Q = .ok Q)
    (w : Mem.WF Q) : Q.invariantCheck = .ok () := by
  unfold checkAfter at hc
  simp only at hc
  split at hc
  · cases hc
  next h0 =>
  obtain ⟨_, -, hc⟩ := bind_eq_ok.1 hc
  split at hc
  · cases hc
  obtain ⟨q, hq, hc⟩ := bind_eq_ok.1 hc
  split at hc
  · cases hc
  next hv =>
  unfold Question.invariantCheck
  rw [pyAssert_of (by rw [List.all_eq_true]; intro x hx; simpa using w.b0 x hx), ok_bind,
    pyAssert_of (by rw [List.all_eq_true]; intro x hx; simpa using w.bd0 x hx), ok_bind,
    pyAssert_of (by rw [beq_iff_eq]; exact w.blen.symm), ok_bind,
    pyAssert_of (by rw [beq_iff_eq]; exact w.bdlen.symm), ok_bind,
    pyAssert_of (by rw [beq_iff_eq, unknownLoc_length, h.unk]), ok_bind, hq, ok_bind,
    pyAssert_of (by
      rw [List.all_eq_true]
      intro p hp
      rw [decide_eq_true_eq]
      by_contra hn
      exact hv (List.any_eq_true.2 ⟨p, hp, by simpa using hn⟩)), ok_bind]
  split
  · next hz =>
    apply pyAssert_of
    rw [List.all_eq_true]
    intro x hx
    rw [beq_iff_eq]
    by_contra hn
    apply h0
    rw [Bool.and_eq_true]
    exact ⟨hz, List.any_eq_true.2 ⟨x, hx, by simpa using hn⟩⟩
  · rfl

theorem bind_checkAfter {r : Res Question} {Q : Question} (h : (r >>= checkAfter) = .ok Q) :
    checkAfter Q = .ok Q := by
  obtain ⟨Q1, -, h⟩ := bind_eq_ok.1 h
  have e := checkAfter_eq h
  subst e
  exact h

theorem step_checked {f : Question → Res Question} (hf : f ∈ [reduceCol, eliminate, zeroInB, only1])
    {Q Q' : Question} (h : f Q = .ok Q') : checkAfter Q' = .ok Q' := by
  simp only [List.mem_cons, List.not_mem_nil, or_false] at hf
  rcases hf with rfl | rfl | rfl | rfl <;> exact bind_checkAfter h

theorem step_keeps {f : Question → Res Question}
    (hf : f ∈ [reduceCol, eliminate, zeroInB, only1]) : Mem.Keeps f := by
  simp only [List.mem_cons, List.not_mem_nil, or_false] at hf
  rcases hf with rfl | rfl | rfl | rfl
  · exact Mem.keeps_reduceCol
  · exact Mem.keeps_eliminate
  · exact Mem.keeps_zeroInB
  · exact Mem.keeps_only1

theorem fork_keeps {Q : Question} {Qs : List Question} (w : Mem.WF Q) (h : forkEnum Q = .ok Qs) :
    ∀ Q' ∈ Qs, Mem.WF Q' := by
  obtain ⟨q, h1, -, -, o, d⟩ := Mem.placeH_run ⟨[], []⟩ Q
  have := (Mem.forkEnumH_run o (by rw [d]; exact w)).2
  rw [d, h] at this
  rcases hx : (Mem.forkEnumH q h1).1 with e | qs <;> rw [hx] at this
  · exact this.elim
  · exact this.2

theorem Reach.wf {Q₀ Q : Question} (h₀ : Mem.WF Q₀) (h : Reach Q₀ Q) : Mem.WF Q := by
  induction h with
  | first e => exact Mem.keeps_reduceCol _ _ h₀ e
  | reduceCol _ e ih => exact Mem.keeps_reduceCol _ _ ih e
  | eliminate _ e ih => exact Mem.keeps_eliminate _ _ ih e
  | zeroInB _ e ih => exact Mem.keeps_zeroInB _ _ ih e
  | only1 _ e ih => exact Mem.keeps_only1 _ _ ih e
  | fork _ e hm ih => exact fork_keeps ih e _ hm

theorem Reach.step {Q₀ Q Q' : Question} {f : Question → Res Question}
    (hf : f ∈ [TDS.reduceCol, TDS.eliminate, TDS.zeroInB, TDS.only1]) (h : Reach Q₀ Q)
    (e : f Q = .ok Q') : Reach Q₀ Q' := by
  simp only [List.mem_cons, List.not_mem_nil, or_false] at hf
  rcases hf with rfl | rfl | rfl | rfl
  · exact .reduceCol h e
  · exact .eliminate h e
  · exact .zeroInB h e
  · exact .only1 h e

theorem debugStep_eq {f : Question → Res Question} {Q : Question} (w : Mem.WF Q)
    (h : ∀ Q', f Q = .ok Q' → Q'.invariantCheck = .ok ()) : debugStep f Q = f Q := by
  unfold debugStep
  rw [w.ans, ok_bind, Mem.questionMk_ok w, ok_bind]
  rcases hf : f Q with e | Q'
  · rfl
  · rw [ok_bind, h Q' hf, ok_bind]

theorem pass_reach {Q₀ Q : Question} (hr : Q = Q₀ ∨ Reach Q₀ Q) {Q' : Question} (e : reducePass Q = .ok Q') :
    Reach Q₀ Q' := by
  unfold reducePass at e
  obtain ⟨Q1, e1, e⟩ := bind_eq_ok.1 e
  obtain ⟨Q2, e2, e⟩ := bind_eq_ok.1 e
  obtain ⟨Q3, e3, e⟩ := bind_eq_ok.1 e
  have first : Reach Q₀ Q1 := by
    rcases hr with rfl | hr
    · exact .first e1
    · exact .reduceCol hr e1
  exact .only1 (.zeroInB (.eliminate first e2) e3) e

theorem loop_reach {Q₀ Q : Question} (hr : Q = Q₀ ∨ Reach Q₀ Q) {n : Nat} {Q' : Question}
    (e : reduceLoop n Q = .ok Q') : Reach Q₀ Q' ∧ checkAfter Q' = .ok Q' := by
  induction n generalizing Q with
  | zero => cases e
  | succ n ih =>
    unfold reduceLoop at e
    obtain ⟨Q1, e1, e⟩ := bind_eq_ok.1 e
    have h1 := pass_reach hr e1
    split at e
    · rw [← Except.ok.inj e]
      refine ⟨h1, ?_⟩
      unfold reducePass at e1
      obtain ⟨Q1, _, e⟩ := bind_eq_ok.1 e1
      obtain ⟨Q2, _, e⟩ := bind_eq_ok.1 e
      obtain ⟨Q3, _, e⟩ := bind_eq_ok.1 e
      exact step_checked (f := only1) (by simp) e
    · exact ih (Or.inr h1) e

section

variable {v : Nat} {m : Mat} {Q₀ Q : Question} (hm : Spec.Part v m) (h2 : 2 ≤ m.length)
  (hlt : m.length < v) (hv : v ≤ 66) (h₀ : fromMatrix m = .ok Q₀)

include hm h2

theorem part_wf (h₀ : fromMatrix m = .ok Q₀) : Mem.WF Q₀ := by
  have hne : m ≠ [] := by rintro rfl; simp at h2
  refine Mem.fromMatrix_wf (fun r hr => ?_) h₀
  rw [part_ncols hm hne]; exact hm.1 r hr

include hlt hv h₀

/-- **C43, steps.**  A completed step inside `solve_question` leaves a question that passes
`_invariant_check`. -/
theorem C43_invariant (hr : Q = Q₀ ∨ Reach Q₀ Q) {f : Question → Res Question}
    (hf : f ∈ [reduceCol, eliminate, zeroInB, only1]) (hq : Q = Q₀ → f = reduceCol)
    {Q' : Question} (e : f Q = .ok Q') : Q'.invariantCheck = .ok () := by
  have hp := (pre_of_fromMatrix hm h2 hlt hv h₀).1
  have w := part_wf hm h2 h₀
  have hr' : Reach Q₀ Q' := by
    rcases hr with rfl | hr
    · rw [hq rfl] at e; exact .first e
    · exact hr.step hf e
  exact invariantCheck_ok (hr'.inv hp) (step_checked hf e) (hr'.wf w)

theorem debugPass_eq (hr : Q = Q₀ ∨ Reach Q₀ Q) : debugPass Q = reducePass Q := by
  have w := part_wf hm h2 h₀
  have hp := (pre_of_fromMatrix hm h2 hlt hv h₀).1
  have hw : Mem.WF Q := by
    rcases hr with rfl | hr
    · exact w
    · exact hr.wf w
  have st : ∀ {Q1 : Question} {f : Question → Res Question}, Reach Q₀ Q1 →
      f ∈ [reduceCol, eliminate, zeroInB, only1] → debugStep f Q1 = f Q1 := by
    intro Q1 f hr1 hf
    refine debugStep_eq (hr1.wf w) (fun Q' e => ?_)
    exact invariantCheck_ok ((hr1.step hf e).inv hp) (step_checked hf e) ((hr1.step hf e).wf w)
  have first : ∀ {Q1}, reduceCol Q = .ok Q1 → Reach Q₀ Q1 := by
    intro Q1 e
    rcases hr with rfl | hr
    · exact .first e
    · exact .reduceCol hr e
  unfold debugPass reducePass
  rw [debugStep_eq hw (fun Q' e => invariantCheck_ok ((first e).inv hp)
    (step_checked (f := reduceCol) (by simp) e) ((first e).wf w))]
  rcases e1 : reduceCol Q with e | Q1
  · rfl
  rw [ok_bind, ok_bind, st (first e1) (by simp)]
  rcases e2 : eliminate Q1 with e | Q2
  · rfl
  rw [ok_bind, ok_bind, st (.eliminate (first e1) e2) (by simp)]
  rcases e3 : zeroInB Q2 with e | Q3
  · rfl
  rw [ok_bind, ok_bind, st (.zeroInB (.eliminate (first e1) e2) e3) (by simp)]

theorem debugLoop_eq (hr : Q = Q₀ ∨ Reach Q₀ Q) (n : Nat) : debugLoop n Q = reduceLoop n Q := by
  have w := part_wf hm h2 h₀
  induction n generalizing Q with
  | zero => rfl
  | succ n ih =>
    unfold debugLoop reduceLoop
    rw [debugPass_eq hm h2 hlt hv h₀ hr]
    rcases e : reducePass Q with e' | Q1
    · rfl
    have h1 := pass_reach hr e
    have wq : Mem.WF Q := by
      rcases hr with rfl | hr
      · exact w
      · exact hr.wf w
    rw [ok_bind, ok_bind, ih (Or.inr h1)]
    have := C43_eq (Q := Q1) (R := Q) (h1.wf w).rect wq.rect
    by_cases hE : Q1 = Q
    · rw [if_pos hE, if_pos (this.2 hE)]
    · rw [if_neg hE, if_neg (fun h => hE (this.1 h))]

/-- **C43, whole treatment of a question.**  Decorating the five steps with `debug` (the commented
lines of solver.py) changes nothing: no assertion of the check ever fails. -/
theorem C43_debug (hr : Q = Q₀ ∨ Reach Q₀ Q) : debugVisit Q = visit Q := by
  have w := part_wf hm h2 h₀
  have hp := (pre_of_fromMatrix hm h2 hlt hv h₀).1
  unfold debugVisit visit
  rw [debugLoop_eq hm h2 hlt hv h₀ hr]
  rcases e : reduceLoop (reduceFuel Q) Q with e' | Q1
  · rfl
  obtain ⟨h1, hc⟩ := loop_reach hr e
  have hf : debugFork Q1 = forkEnum Q1 := by
    have w1 := h1.wf w
    unfold debugFork
    rw [w1.ans, ok_bind, Mem.questionMk_ok w1, ok_bind, hc, ok_bind,
      invariantCheck_ok (h1.inv hp) hc w1, ok_bind]
  rw [ok_bind, ok_bind, hf]
  rfl

end

/-- Non-vacuity: `_invariant_check` does fail on questions that break a bucket width. -/
example : (⟨[[1]], [1], 1, [1], ⟨[-1, 5], [0, 1], 3⟩⟩ : Question).invariantCheck =
    .error .assertion := by decide +kernel

/-- Non-vacuity: `_invariant_check` on the question of the repository's `test2`
(/repo/tests/test_solver.py:43-57) after `only_1_element_in_row`. -/
example : ((only1 ⟨[[0, 1], [0, 1], [0, 0], [1, 0], [1, 0], [0, 0]], [4, 4, 0, 4, 4, 0], 8, [4, 4],
    ⟨[0, -1, 0, 0, -1], [0, 4, 8, 12, 16], 20⟩⟩) >>= Question.invariantCheck) = .ok () := by
  decide +kernel

/-- The first question need not pass the check: with no unknown left and a nonzero right-hand side
it fails (the next step then raises NoSolution). -/
example : ∃ Q, fromMatrix [[0, 1, 1, 0], [0, 0, 0, 0], [0, 0, 0, 0]] = .ok Q ∧ Q.invariantCheck = .error .assertion ∧
    reduceCol Q = .error .noSolution := ⟨_, rfl, by decide +kernel, by decide +kernel⟩

/-- Non-vacuity of the hypotheses: the pentagon after two rows. -/
example : ∃ Q, fromMatrix [[0, 1, 1, 0, 0], [1, 0, 0, 1, 0]] = .ok Q ∧
    debugVisit Q = .ok ([[0, 1]], []) := ⟨_, rfl, by decide +kernel⟩

end TDS
