import Verif.Model.Opt
import Verif.Proof.Basic

/-! Leaving out assertions changes a result only if one of them fails. -/

namespace TDS

/-- The first run fails with an `AssertionError`, or both runs have the same outcome. -/
def Le {α : Type} (r r' : Res α) : Prop := r = .error .assertion ∨ r = r'

theorem Le.refl {α : Type} (r : Res α) : Le r r := Or.inr rfl

theorem Le.assert {α : Type} {c : Bool} {f : Unit → Res α} {r : Res α} (h : Le (f ()) r) :
    Le (pyAssert c >>= f) r := by
  cases c
  · exact Or.inl rfl
  · exact h

theorem Le.bind {α β : Type} {r r' : Res α} {f f' : α → Res β} (h : Le r r')
    (hf : ∀ a, Le (f a) (f' a)) : Le (r >>= f) (r' >>= f') := by
  rcases h with rfl | rfl
  · exact Or.inl rfl
  · cases r with
    | error e => exact Or.inr rfl
    | ok a => exact hf a

theorem Le.ok {α β : Type} {r : Res α} {a : α} {f : α → Res β} {r' : Res β} (h : Le r (.ok a))
    (hf : Le (f a) r') : Le (r >>= f) r' := by
  rcases h with rfl | rfl
  · exact Or.inl rfl
  · exact hf

theorem Le.ite {α : Type} {c : Prop} [Decidable c] {a b a' b' : Res α} (h1 : Le a a')
    (h2 : Le b b') : Le (if c then a else b) (if c then a' else b') := by
  split
  · exact h1
  · exact h2

theorem Le.mapM {α β : Type} {f f' : α → Res β} (h : ∀ a, Le (f a) (f' a)) (l : List α) :
    Le (l.mapM f) (l.mapM f') := by
  induction l with
  | nil => exact Le.refl _
  | cons a l ih =>
    rw [List.mapM_cons, List.mapM_cons]
    exact Le.bind (h a) (fun b => Le.bind ih (fun _ => Le.refl _))

theorem Le.eq_ok {α : Type} {r r' : Res α} {a : α} (h : Le r r') (hr : r = .ok a) :
    r' = .ok a := by
  rcases h with h | h
  · rw [h] at hr; cases hr
  · rw [← h, hr]

theorem answer_le (v loc : Vec) (len : Int) : Le (Answer.mk' v loc len) (.ok ⟨v, loc, len⟩) := by
  unfold Answer.mk'
  refine Le.assert ?_
  split
  · exact Le.assert (Le.assert (Le.assert (Le.refl _)))
  · exact Le.refl _

theorem quota_le (a : Answer) : Le a.quota (.ok a.quotaN) := by
  unfold Answer.quota
  exact Le.assert (Le.refl _)

theorem binarize_le (a : Answer) : Le a.binarize (.ok a.binarizeN) := by
  unfold Answer.binarize
  exact Le.assert (Le.ok (quota_le a) (Le.assert (Le.refl _)))

theorem question_le (A : Mat) (b : Vec) (quota : Int) (bounds : Vec) (ans : Option Answer) :
    Le (Question.mk' A b quota bounds ans) (.ok (Question.mkN A b quota bounds ans)) := by
  unfold Question.mk'
  refine Le.assert (Le.assert (Le.assert (Le.assert (Le.assert ?_))))
  cases ans with
  | some a => exact Le.refl _
  | none => exact Le.ok (answer_le _ _ _) (Le.refl _)

theorem fromMatrix_le (m : Mat) : Le (fromMatrix m) (fromMatrixN m) := by
  unfold fromMatrix fromMatrixN
  refine Le.bind (Le.refl _) ?_
  rintro ⟨_, k, l, u⟩
  exact Le.ite (Le.refl _) (Le.ite (Le.refl _) (question_le _ _ _ _ _))

theorem appendRow_le (m : Mat) (x : Vec) : Le (appendRow m x) (appendRowN m x) := by
  unfold appendRow appendRowN
  exact Le.ite (Le.refl _) (Le.assert (Le.refl _))

namespace Gauss

theorem gaussStep_le (hd : List Entry) : Le (gaussStep hd) (gaussStepN hd) := by
  unfold gaussStep gaussStepN
  cases ssort hd with
  | nil => exact Le.refl _
  | cons m rest => exact Le.assert (Le.refl _)

theorem elimLoop_le (n : Nat) : ∀ hs hd : List Entry, Le (elimLoop n hs hd) (elimLoopN n hs hd) := by
  induction n with
  | zero => intro hs hd; cases hd <;> exact Le.refl _
  | succ n ih =>
    intro hs hd
    cases hd with
    | nil => exact Le.refl _
    | cons h t =>
      rw [elimLoop, elimLoopN]
      refine Le.bind (gaussStep_le _) ?_
      rintro ⟨s, hd'⟩
      refine Le.ite (ih _ _) ?_
      cases ssort hd' with
      | nil => exact Le.refl _
      | cons m rest => exact ih _ _

theorem elim_le (A : Mat) (b : Vec) : Le (elim A b) (elimN A b) := by
  unfold elim elimN encode encodeN
  refine Le.bind (Le.assert (Le.refl _)) (fun hd => Le.bind ?_ (fun _ => Le.refl _))
  unfold elimList elimListN
  exact Le.ite (Le.refl _) (elimLoop_le _ _ _)

end Gauss

theorem checkAfter_le (Q : Question) : Le (checkAfter Q) (checkAfterN Q) := by
  unfold checkAfter checkAfterN
  exact Le.ite (Le.refl _) (Le.assert (Le.ite (Le.refl _) (Le.ok (quota_le _) (Le.refl _))))

theorem reduceCol_le (Q : Question) : Le (reduceCol Q) (reduceColN Q) := by
  unfold reduceCol reduceColN reduceColBody reduceColBodyN
  refine Le.bind (Le.ite (Le.refl _) ?_) checkAfter_le
  refine Le.bind (Le.refl _) (fun enc => Le.bind (Le.refl _) (fun dropAns => Le.assert ?_))
  exact Le.ok (answer_le _ _ _) (Le.assert (Le.refl _))

theorem eliminate_le (Q : Question) : Le (eliminate Q) (eliminateN Q) := by
  unfold eliminate eliminateN eliminateBody eliminateBodyN
  refine Le.bind (Le.ite (Le.refl _) ?_) checkAfter_le
  exact Le.bind (Gauss.elim_le _ _) (fun p => Le.assert (Le.refl _))

theorem zeroInB_le (Q : Question) : Le (zeroInB Q) (zeroInBN Q) := by
  unfold zeroInB zeroInBN zeroInBBody zeroInBBodyN
  refine Le.bind (Le.assert ?_) checkAfter_le
  exact Le.bind (Le.refl _) (fun v => Le.assert (Le.refl _))

theorem only1With_le (rcs : List (Nat × Nat)) (Q : Question) :
    Le (only1With rcs Q) (only1WithN rcs Q) := by
  unfold only1With only1WithN
  refine Le.assert (Le.ite (Le.refl _) (Le.ite (Le.refl _) (Le.ite (Le.refl _)
    (Le.ite (Le.refl _) ?_))))
  exact Le.bind (Le.refl _) (fun v => Le.assert (Le.assert (Le.assert (Le.refl _))))

theorem only1_le (Q : Question) : Le (only1 Q) (only1N Q) := by
  unfold only1 only1N
  exact Le.bind (only1With_le _ _) checkAfter_le

theorem forkEnum_le (Q : Question) : Le (forkEnum Q) (forkEnumN Q) := by
  unfold forkEnum forkEnumN
  refine Le.bind (checkAfter_le Q) (fun Q => Le.assert ?_)
  refine Le.bind (Le.refl _) (fun minloc => ?_)
  refine Le.bind (Le.refl _) (fun qs => ?_)
  refine Le.bind (Le.mapM (fun qr => Le.ite (Le.refl _) ?_) _) (fun _ => Le.refl _)
  exact Le.bind (Le.refl _) (fun p => Le.ok (question_le _ _ _ _ _) (Le.refl _))

theorem reducePass_le (Q : Question) : Le (reducePass Q) (reducePassN Q) := by
  unfold reducePass reducePassN
  exact Le.bind (reduceCol_le _) (fun _ => Le.bind (eliminate_le _) (fun _ =>
    Le.bind (zeroInB_le _) only1_le))

theorem reduceLoop_le (n : Nat) : ∀ Q, Le (reduceLoop n Q) (reduceLoopN n Q) := by
  induction n with
  | zero => intro Q; exact Le.refl _
  | succ n ih =>
    intro Q
    rw [reduceLoop, reduceLoopN]
    exact Le.bind (reducePass_le Q) (fun Q' => Le.ite (Le.refl _) (ih Q'))

theorem visit_le (Q : Question) : Le (visit Q) (visitN Q) := by
  unfold visit visitN
  have h : Le (do
      let Q ← reduceLoop (reduceFuel Q) Q
      if Q.ans.unknown then do
        let qs ← forkEnum Q
        .ok (([] : List Vec), qs)
      else do
        let a ← Q.ans.binarize
        .ok ([a], [])) (do
      let Q ← reduceLoopN (reduceFuel Q) Q
      if Q.ans.unknown then do
        let qs ← forkEnumN Q
        .ok ([], qs)
      else .ok ([Q.ans.binarizeN], [])) :=
    Le.bind (reduceLoop_le _ _) (fun Q => Le.ite
      (Le.bind (forkEnum_le _) (fun _ => Le.refl _)) (Le.ok (binarize_le _) (Le.refl _)))
  rcases h with h | h
  · rw [h]; exact Or.inl rfl
  · rw [h]; exact Or.inr rfl

theorem solveTree_le (n : Nat) : ∀ Q, Le (solveTree n Q) (solveTreeN n Q) := by
  induction n with
  | zero => intro Q; exact Le.refl _
  | succ n ih =>
    intro Q
    rw [solveTree, solveTreeN]
    exact Le.bind (visit_le Q) (fun p => Le.bind (Le.mapM ih _) (fun _ => Le.refl _))

theorem solveQuestion_le (Q : Question) : Le (solveQuestion Q) (solveQuestionN Q) :=
  solveTree_le _ Q

theorem advance_le (m : Mat) : Le (advance m) (advanceN m) := by
  unfold advance advanceN
  refine Le.assert ?_
  rcases fromMatrix_le m with h | h
  · rw [h]; exact Or.inl rfl
  · rw [h]
    cases fromMatrixN m with
    | error e => cases e <;> exact Le.refl _
    | ok q => exact Le.bind (solveQuestion_le _) (fun rows => Le.mapM (appendRow_le m) rows)

theorem solveLevels_le (n : Nat) : ∀ lst, Le (solveLevels n lst) (solveLevelsN n lst) := by
  induction n with
  | zero => intro lst; cases lst <;> exact Le.refl _
  | succ n ih =>
    intro lst
    cases lst with
    | nil => exact Le.refl _
    | cons m t =>
      exact Le.bind (Le.mapM advance_le _) (fun next => Le.bind (ih _) (fun _ => Le.refl _))

theorem solve_le (m : Mat) : Le (solve m) (solveN m) :=
  Le.bind (advance_le m) (fun _ => solveLevels_le _ _)

theorem main_le (argv : List Str) : Le (main argv) (mainN argv) := by
  unfold main mainN
  refine Le.bind (Le.refl _) (fun l => ?_)
  match l with
  | [v, k, l, u] =>
    exact Le.assert (Le.bind (Le.refl _) (fun s => Le.bind (solve_le s) (fun _ => Le.refl _)))
  | [] | [_] | [_, _] | [_, _, _] | _ :: _ :: _ :: _ :: _ :: _ => exact Le.refl _

theorem Partition.enum_le : ∀ (bounds : Vec) (s : Int),
    Le (Partition.enum s bounds) (Partition.enumN s bounds)
  | [], s => Or.inl (by rw [Partition.enum])
  | [b], s => by
    rw [Partition.enum, Partition.enumN]
    exact Le.assert (Le.refl _)
  | b :: b2 :: t, s => by
    rw [Partition.enum, Partition.enumN]
    exact Le.assert (Le.bind (Le.mapM (fun v => Le.bind (Partition.enum_le (b2 :: t) (s - v))
      (fun _ => Le.refl _)) _) (fun _ => Le.refl _))

namespace Sorter

theorem sortRow_le (argsort : Vec → List Nat) (M : Mat) (row c0 : Nat) (c1 : Option Nat) :
    Le (sortRow argsort M row c0 c1) (sortRowN argsort M row c0 c1) := by
  unfold sortRow sortRowN
  refine Le.ite (Le.refl _) ?_
  cases c1 with
  | none => exact Le.refl _
  | some c1 => exact Le.ite (Le.refl _) (Le.assert (Le.refl _))

theorem divSort_le (argsort : Vec → List Nat) (M : Mat) (si : Instr) :
    Le (divSort argsort M si) (divSortN argsort M si) := by
  unfold divSort divSortN
  refine Le.bind (sortRow_le _ _ _ _ _) (fun p => ?_)
  dsimp only
  cases si.di with
  | none => exact Le.refl _
  | some di => exact Le.bind (sortRow_le _ _ _ _ _) (fun _ => Le.refl _)

theorem sortLoop_le (argsort : Vec → List Nat) (n : Nat) : ∀ (M : Mat) (q : List Instr),
    Le (sortLoop argsort n M q) (sortLoopN argsort n M q) := by
  induction n with
  | zero => intro M q; cases q <;> exact Le.refl _
  | succ n ih =>
    intro M q
    cases q with
    | nil => exact Le.refl _
    | cons si q => exact Le.bind (divSort_le _ _ _) (fun p => ih _ _)

theorem maximize_le (argsort : Vec → List Nat) (A : Mat) :
    Le (maximize argsort A) (maximizeN argsort A) :=
  Le.bind (sortRow_le _ _ _ _ _) (fun _ => sortLoop_le _ _ _ _)

theorem swapAndVerify_le (M : Mat) (i j : Nat) :
    Le (swapAndVerify M i j) (swapAndVerifyN M i j) := by
  unfold swapAndVerify swapAndVerifyN
  cases swap M i j with
  | error e => exact Le.refl _
  | ok M => exact Le.assert (Le.assert (Le.refl _))

end Sorter

end TDS
