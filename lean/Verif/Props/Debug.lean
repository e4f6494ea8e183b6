import Verif.Model.Debug
import Verif.Props.Check
import Verif.Props.Repr

/-! C73: what the debugging decorator prints. -/

namespace TDS

open Debug Print

/-- **C73.**  Printing does not change the result. -/
theorem C73_result (name : Str) (f : Question → Res Question) (Q : Question) :
    (debugText name f Q).2 = debugStep f Q := by
  unfold debugText debugStep
  rcases Answer.mk' Q.ans.v Q.ans.loc Q.ans.len with e | a
  · rfl
  simp only [ok_bind]
  rcases Question.mk' Q.A Q.b Q.quota Q.bounds (some a) with e | R
  · rfl
  simp only [ok_bind]
  rcases f Q with e | Q'
  · rfl
  simp only [ok_bind]
  rcases Q'.invariantCheck with e | _
  · cases e <;> rfl
  · rfl

theorem shaped_of {W : Vec} {Q : Question} (h : Inv W Q) : Spec.Shaped Q :=
  ⟨h.sys.ne, h.sys.rect, h.sys.len, h.blen, h.vlen.trans h.lay.wlen.symm⟩

theorem shaped_of_pre {Q : Question} (h : Pre Q) : Spec.Shaped Q :=
  ⟨h.sys.ne, h.sys.rect, h.sys.len, by rw [h.bounds, List.length_replicate], by rw [h.ans]; simp⟩

section

variable {v : Nat} {m : Mat} {Q₀ Q Q' : Question} {name : Str} {f : Question → Res Question}
  (hm : Spec.Part v m) (h2 : 2 ≤ m.length)
  (hlt : m.length < v) (hv : v ≤ 66) (h₀ : fromMatrix m = .ok Q₀)

include hm h2 hlt hv h₀

omit hlt hv in
/-- **C73.**  A step inside `solve_question` that raises an exception prints nothing. -/
theorem C73_silent (hr : Q = Q₀ ∨ Reach Q₀ Q) {e : Err} (hf : f Q = .error e) :
    debugText name f Q = ([], .error e) := by
  have w : Mem.WF Q := by
    rcases hr with rfl | hr
    · exact part_wf hm h2 h₀
    · exact hr.wf (part_wf hm h2 h₀)
  unfold debugText
  rw [w.ans, ok_bind, Mem.questionMk_ok w, ok_bind, hf]
  rfl

/-- **C73.**  A completed step prints one line if it changed nothing, and otherwise the question before
and after, which are then printed differently.  The message about a failed check does not occur. -/
theorem C73_prints (hr : Q = Q₀ ∨ Reach Q₀ Q) (hs : (name, f) ∈ steps) (hq : Q = Q₀ → f = reduceCol)
    (hf : f Q = .ok Q') :
    (Q' = Q → debugText name f Q = ([.blue ("'performing ".toList ++ name ++ ". No change'".toList)], .ok Q')) ∧
    (Q' ≠ Q → debugText name f Q = ([.plain (reprQuestion Q),
        .green ("'performing ".toList ++ name ++ ". reduce to'".toList),
      .plain (reprQuestion Q')], .ok Q') ∧ reprQuestion Q ≠ reprQuestion Q') := by
  have hs' : f ∈ [reduceCol, eliminate, zeroInB, only1] := by
    simp only [steps, List.mem_cons, Prod.mk.injEq, List.not_mem_nil, or_false] at hs ⊢
    tauto
  have w₀ := part_wf hm h2 h₀
  have w : Mem.WF Q := by
    rcases hr with rfl | hr
    · exact w₀
    · exact hr.wf w₀
  have hr' : Reach Q₀ Q' := by
    rcases hr with rfl | hr
    · rw [hq rfl] at hf; exact .first hf
    · exact hr.step hs' hf
  have w' := hr'.wf w₀
  have hc := C43_invariant hm h2 hlt hv h₀ hr hs' hq hf
  have he := C43_eq (Q := Q') (R := Q) w'.rect w.rect
  have hd : debugText name f Q = ((if Q'.pyEq Q then [.blue ("'performing ".toList ++ name ++ ". No change'".toList)]
      else [.plain (reprQuestion Q), .green ("'performing ".toList ++ name ++ ". reduce to'".toList),
        .plain (reprQuestion Q')]), .ok Q') := by
    unfold debugText
    rw [w.ans, ok_bind, Mem.questionMk_ok w, ok_bind, hf, ok_bind]
    simp only [hc]
    rfl
  refine ⟨fun h => ?_, fun h => ⟨?_, fun hrep => h ?_⟩⟩
  · rw [hd, if_pos (he.2 h)]
  · rw [hd, if_neg (fun h1 => h (he.1 h1))]
  · have hp := (pre_of_fromMatrix hm h2 hlt hv h₀).1
    have hsQ : Spec.Shaped Q := by
      rcases hr with rfl | hr
      · exact shaped_of_pre hp
      · exact shaped_of (hr.inv hp)
    exact (C68_injective hsQ (shaped_of (hr'.inv hp)) hrep).symm

/-- **C73.**  Branching prints that nothing has changed, or nothing if it is found unsolvable. -/
theorem C73_fork (hr : Reach Q₀ Q) :
    debugForkText Q = ([.blue ("'performing fork_enum. No change'".toList)], .ok Q) ∨
      ∃ e, debugForkText Q = ([], .error e) := by
  have w₀ := part_wf hm h2 h₀
  have w := hr.wf w₀
  rcases hc : checkAfter Q with e | Q'
  · exact Or.inr ⟨e, C73_silent hm h2 h₀ (Or.inr hr) hc⟩
  · left
    have e := checkAfter_eq hc
    subst e
    have hi := invariantCheck_ok (hr.inv (pre_of_fromMatrix hm h2 hlt hv h₀).1) hc w
    have he := (C43_eq (Q := Q') (R := Q') w.rect w.rect).2 rfl
    unfold debugForkText debugText
    rw [w.ans, ok_bind, Mem.questionMk_ok w, ok_bind, hc, ok_bind]
    simp only [hi, he, if_true]
    rfl

end

theorem quota_assertion {a : Answer} {e : Err} (h : a.quota = .error e) : e = .assertion := by
  unfold Answer.quota at h
  simp only [pyAssert] at h
  split at h
  · cases h
  · cases h; rfl

theorem invariantCheck_assertion {Q : Question} {e : Err} (h : Q.invariantCheck = .error e) :
    e = .assertion := by
  have hp : ∀ {b : Bool} {e}, pyAssert b = .error e → e = .assertion := by
    intro b e hb
    unfold pyAssert at hb
    split at hb
    · cases hb
    · cases hb; rfl
  have hb : ∀ {α β : Type} {x : Res α} {f : α → Res β} {e : Err}, (x >>= f) = .error e →
      x = .error e ∨ ∃ a, f a = .error e := by
    intro α β x f e hx
    rcases x with e' | a
    · cases hx; exact Or.inl rfl
    · exact Or.inr ⟨a, hx⟩
  unfold Question.invariantCheck at h
  iterate 5
    rcases hb h with h | ⟨_, h⟩
    · exact hp h
  rcases hb h with h | ⟨_, h⟩
  · exact quota_assertion h
  rcases hb h with h | ⟨_, h⟩
  · exact hp h
  split at h
  · exact hp h
  · cases h

/-- **C73.**  A step that completes but leaves a question that fails the consistency check: after the
usual message come the question before, the red message, the question after and an empty line, and the
exception is AssertionError.  (For the steps of `solve_question` this does not happen.) -/
theorem C73_failed {Q Q' : Question} {name : Str} {f : Question → Res Question} (w : Mem.WF Q)
    (hf : f Q = .ok Q') {e : Err} (hc : Q'.invariantCheck = .error e) :
    debugText name f Q = ((if Q'.pyEq Q then [.blue ("'performing ".toList ++ name ++ ". No change'".toList)]
      else [.plain (reprQuestion Q), .green ("'performing ".toList ++ name ++ ". reduce to'".toList),
        .plain (reprQuestion Q')]) ++ [.plain (reprQuestion Q),
        .red ("'performing ".toList ++ name ++ ". AssertionError!'".toList),
        .plain (reprQuestion Q'), .plain []], .error .assertion) := by
  obtain rfl := invariantCheck_assertion hc
  unfold debugText
  rw [w.ans, ok_bind, Mem.questionMk_ok w, ok_bind, hf, ok_bind]
  simp only [hc]
  rfl

/-- The names under which the steps are announced. -/
theorem C73_steps : steps =
    (["reduce_col", "eliminate", "zero_in_b", "only_1_element_in_row"].map String.toList).zip
      [reduceCol, eliminate, zeroInB, only1] := rfl

/-- The question for the third row of the pentagon. -/
def pentagonQ : Question :=
  ⟨[[0, 0], [1, 0], [1, 1]], [0, 0, 1], 1, [1, 1], ⟨[-1, -1], [0, 1], 2⟩⟩

/-- Non-vacuity: merging columns changes nothing, elimination does. -/
example : fromMatrix [[0, 1, 1, 0, 0], [1, 0, 0, 1, 0]] = .ok pentagonQ ∧
    (debugText "reduce_col".toList reduceCol pentagonQ).1 =
      [.blue "'performing reduce_col. No change'".toList] ∧
    (debugText "eliminate".toList eliminate pentagonQ).1 =
      [.plain "b\tA_(3x2)\n0\t[0 0]\n0\t[1 0]\n1\t[1 1]\nx=\t[? ?]_(2x1)\tquota=sum(x)=1\nbnd\t[1 1]\nAnswer(value=array([-1, -1], dtype=int8), \n    location=array([0, 1]), len=2)".toList,
       .green "'performing eliminate. reduce to'".toList,
       .plain "b\tA_(2x2)\n1\t[0 1]\n0\t[1 0]\nx=\t[? ?]_(2x1)\tquota=sum(x)=1\nbnd\t[1 1]\nAnswer(value=array([-1, -1], dtype=int8), \n    location=array([0, 1]), len=2)".toList] := by
  decide +kernel

/-- Non-vacuity of `C73_failed`. -/
example : (debugText "break".toList (fun Q => .ok { Q with b := [0, 0, -1] }) pentagonQ).1.length = 7 ∧
    (debugText "break".toList (fun Q => .ok { Q with b := [0, 0, -1] }) pentagonQ).1.getD 4 (.plain []) =
      .red "'performing break. AssertionError!'".toList := by
  decide +kernel

end TDS
