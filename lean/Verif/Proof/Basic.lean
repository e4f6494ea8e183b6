import Verif.Model.Np
import Mathlib.Data.List.Forall2
import Mathlib.Data.List.Nodup
import Mathlib.Data.List.GetD
import Mathlib.Data.List.Perm.Basic
import Mathlib.Algebra.BigOperators.Group.List.Basic
import Mathlib.Tactic.Ring
import Mathlib.Tactic.Linarith

/-! List, dot-product and deletion lemmas. -/

namespace TDS

/-! ### machine integers -/

theorem i8_of_range {x : Int} (h1 : -128 ≤ x) (h2 : x ≤ 127) : i8 x = x := by
  unfold i8; rw [Int.bmod_def]; omega

theorem i64_of_range {x : Int} (h1 : -9223372036854775808 ≤ x) (h2 : x < 9223372036854775808) :
    i64 x = x := by
  unfold i64; rw [Int.bmod_def]; omega

/-! ### pyAssert / pyGet -/

@[simp] theorem pyAssert_true : pyAssert true = .ok () := rfl
@[simp] theorem pyAssert_false : pyAssert false = .error .assertion := rfl

theorem pyAssert_of {c : Bool} (h : c = true) : pyAssert c = .ok () := by subst h; rfl

theorem pyGet_of_lt {α : Type} {l : List α} {i : Nat} (h : i < l.length) :
    pyGet l i = .ok l[i] := by
  unfold pyGet; simp [List.getElem?_eq_getElem h]

@[simp] theorem ok_bind {α β : Type} (a : α) (f : α → Res β) :
    (Except.ok a >>= f) = f a := rfl
@[simp] theorem error_bind {α β : Type} (e : Err) (f : α → Res β) :
    ((Except.error e : Res α) >>= f) = .error e := rfl

theorem bind_eq_ok {α β : Type} {x : Res α} {f : α → Res β} {b : β} :
    (x >>= f) = .ok b ↔ ∃ a, x = .ok a ∧ f a = .ok b := by
  cases x with
  | error e => simp
  | ok a => simp

/-! ### dot -/

theorem mapM_ok {α β : Type} {l : List α} {f : α → Res β} {g : α → β}
    (h : ∀ a ∈ l, f a = .ok (g a)) : l.mapM f = .ok (l.map g) := by
  induction l with
  | nil => rfl
  | cons a l ih =>
    rw [List.mapM_cons, h a (by simp), ih (fun a ha => h a (by simp [ha]))]
    rfl

@[simp] theorem dot_nil_left (x : Vec) : dot [] x = 0 := rfl
@[simp] theorem dot_nil_right (x : Vec) : dot x [] = 0 := by cases x <;> rfl
@[simp] theorem dot_cons (a b : Int) (r x : Vec) : dot (a :: r) (b :: x) = a * b + dot r x := by
  simp [dot]

theorem dot_append {r s x y : Vec} (h : r.length = x.length) :
    dot (r ++ s) (x ++ y) = dot r x + dot s y := by
  induction r generalizing x with
  | nil => cases x with
    | nil => simp
    | cons _ _ => simp at h
  | cons a r ih => cases x with
    | nil => simp at h
    | cons b x =>
      simp only [List.length_cons, Nat.add_right_cancel_iff] at h
      simp only [List.cons_append, dot_cons, ih h]; ring

theorem dot_reverse {r x : Vec} (h : r.length = x.length) : dot r.reverse x.reverse = dot r x := by
  induction r generalizing x with
  | nil => cases x with
    | nil => simp
    | cons _ _ => simp at h
  | cons a r ih => cases x with
    | nil => simp at h
    | cons b x =>
      simp only [List.length_cons, Nat.add_right_cancel_iff] at h
      simp only [List.reverse_cons]
      rw [dot_append (by simpa using h), ih h]
      simp; ring

theorem dot_comm (r x : Vec) : dot r x = dot x r := by
  induction r generalizing x with
  | nil => simp
  | cons a r ih => cases x with
    | nil => simp
    | cons b x => simp [ih x, mul_comm]

theorem dot_replicate_one (n : Nat) (x : Vec) (h : x.length = n) :
    dot (List.replicate n 1) x = x.sum := by
  induction n generalizing x with
  | zero => simp at h; subst h; simp
  | succ n ih => cases x with
    | nil => simp at h
    | cons b x =>
      simp only [List.length_cons, Nat.add_right_cancel_iff] at h
      simp [List.replicate_succ, ih x h]

theorem dot_sub_left {r s x : Vec} (h : r.length = s.length) :
    dot (List.zipWith (· - ·) r s) x = dot r x - dot s x := by
  induction r generalizing s x with
  | nil => cases s with
    | nil => simp
    | cons _ _ => simp at h
  | cons a r ih => cases s with
    | nil => simp at h
    | cons b s => cases x with
      | nil => simp
      | cons c x =>
        simp only [List.length_cons, Nat.add_right_cancel_iff] at h
        simp [ih h]; ring

theorem dot_nonneg {r x : Vec} (hr : ∀ a ∈ r, 0 ≤ a) (hx : ∀ a ∈ x, 0 ≤ a) : 0 ≤ dot r x := by
  induction r generalizing x with
  | nil => simp
  | cons a r ih => cases x with
    | nil => simp
    | cons b x =>
      simp only [List.mem_cons, forall_eq_or_imp] at hr hx
      simp only [dot_cons]
      have := ih hr.2 hx.2
      have := mul_nonneg hr.1 hx.1
      omega

/-- For nonnegative data, a single product is at most the inner product. -/
theorem getD_mul_le_dot {r x : Vec} (hr : ∀ a ∈ r, 0 ≤ a) (hx : ∀ a ∈ x, 0 ≤ a) (j : Nat) :
    r.getD j 0 * x.getD j 0 ≤ dot r x := by
  induction r generalizing x j with
  | nil => simp
  | cons a r ih => cases x with
    | nil => simp
    | cons b x =>
      simp only [List.mem_cons, forall_eq_or_imp] at hr hx
      have h1 := dot_nonneg hr.2 hx.2
      have h2 := mul_nonneg hr.1 hx.1
      cases j with
      | zero => simp; omega
      | succ j => have := ih hr.2 hx.2 j; simp at this ⊢; omega

/-! ### deletion -/

@[simp] theorem deleteFrom_nil {α : Type} (ids : List Nat) (i : Nat) :
    deleteFrom ids i ([] : List α) = [] := rfl

theorem deleteFrom_cons {α : Type} (ids : List Nat) (i : Nat) (x : α) (xs : List α) :
    deleteFrom ids i (x :: xs) =
      if i ∈ ids then deleteFrom ids (i + 1) xs else x :: deleteFrom ids (i + 1) xs := by
  simp [deleteFrom]

theorem deleteFrom_empty {α : Type} (i : Nat) (l : List α) : deleteFrom [] i l = l := by
  induction l generalizing i with
  | nil => rfl
  | cons x xs ih => simp [deleteFrom_cons, ih]

@[simp] theorem npDelete_empty {α : Type} (l : List α) : npDelete [] l = l := deleteFrom_empty 0 l

theorem deleteFrom_congr {α : Type} {ids ids' : List Nat} (h : ∀ c, c ∈ ids ↔ c ∈ ids') (i : Nat)
    (l : List α) : deleteFrom ids i l = deleteFrom ids' i l := by
  induction l generalizing i with
  | nil => rfl
  | cons x xs ih => simp [deleteFrom_cons, ih, h]

theorem npDelete_congr {α : Type} {ids ids' : List Nat} (h : ∀ c, c ∈ ids ↔ c ∈ ids')
    (l : List α) : npDelete ids l = npDelete ids' l := deleteFrom_congr h 0 l

theorem mem_of_mem_deleteFrom {α : Type} {ids : List Nat} {i : Nat} {l : List α} {a : α}
    (h : a ∈ deleteFrom ids i l) : a ∈ l := by
  induction l generalizing i with
  | nil => simp at h
  | cons x xs ih =>
    rw [deleteFrom_cons] at h
    split at h
    · exact List.mem_cons_of_mem _ (ih h)
    · rcases List.mem_cons.1 h with h | h
      · simp [h]
      · exact List.mem_cons_of_mem _ (ih h)

theorem mem_of_mem_npDelete {α : Type} {ids : List Nat} {l : List α} {a : α}
    (h : a ∈ npDelete ids l) : a ∈ l := mem_of_mem_deleteFrom h

/-- Deletion as filtering of positions. -/
theorem deleteFrom_eq_filterMap {α : Type} (ids : List Nat) (i : Nat) (l : List α) :
    deleteFrom ids i l = (l.zipIdx i).filterMap (fun p => if p.2 ∈ ids then none else some p.1) := by
  induction l generalizing i with
  | nil => rfl
  | cons x xs ih =>
    rw [deleteFrom_cons, List.zipIdx_cons, List.filterMap_cons, ih]
    split <;> simp

theorem zipWith_deleteFrom {α β γ : Type} (f : α → β → γ) (ids : List Nat) (i : Nat)
    (r : List α) (x : List β) :
    List.zipWith f (deleteFrom ids i r) (deleteFrom ids i x) =
      deleteFrom ids i (List.zipWith f r x) ∨ r.length ≠ x.length := by
  induction r generalizing x i with
  | nil => left; simp
  | cons a r ih => cases x with
    | nil => right; simp
    | cons b x =>
      rcases ih (i + 1) x with h | h
      · left
        simp only [deleteFrom_cons, List.zipWith_cons_cons]
        split <;> simp [h]
      · right; simpa using h

theorem forall₂_deleteFrom {α β : Type} {P : α → β → Prop} {r : List α} {x : List β}
    (h : List.Forall₂ P r x) (ids : List Nat) (i : Nat) :
    List.Forall₂ P (deleteFrom ids i r) (deleteFrom ids i x) := by
  induction h generalizing i with
  | nil => simp
  | cons h1 _ ih =>
    simp only [deleteFrom_cons]
    split
    · exact ih _
    · exact List.Forall₂.cons h1 (ih _)

theorem forall₂_npDelete {α β : Type} {P : α → β → Prop} {r : List α} {x : List β}
    (h : List.Forall₂ P r x) (ids : List Nat) :
    List.Forall₂ P (npDelete ids r) (npDelete ids x) := forall₂_deleteFrom h ids 0

/-- Lengths agree after deletion when they agree before. -/
theorem length_deleteFrom_congr {α β : Type} (ids : List Nat) (i : Nat) {r : List α} {x : List β}
    (h : r.length = x.length) : (deleteFrom ids i r).length = (deleteFrom ids i x).length := by
  induction r generalizing x i with
  | nil => cases x with
    | nil => rfl
    | cons _ _ => simp at h
  | cons a r ih => cases x with
    | nil => simp at h
    | cons b x =>
      simp only [List.length_cons, Nat.add_right_cancel_iff] at h
      simp only [deleteFrom_cons]
      split <;> simp [ih _ h]

theorem length_npDelete_congr {α β : Type} (ids : List Nat) {r : List α} {x : List β}
    (h : r.length = x.length) : (npDelete ids r).length = (npDelete ids x).length :=
  length_deleteFrom_congr ids 0 h

theorem length_deleteFrom_le {α : Type} (ids : List Nat) (i : Nat) (l : List α) :
    (deleteFrom ids i l).length ≤ l.length := by
  induction l generalizing i with
  | nil => simp
  | cons x xs ih =>
    have := ih (i + 1)
    rw [deleteFrom_cons]; split <;> simp <;> omega

/-- Sum of the entries at the positions of `ids` inside the window starting at `i`. -/
theorem sum_deleteFrom_aux (ids : List Nat) (i : Nat) (l : Vec) :
    (deleteFrom ids i l).sum +
      (((List.range l.length).filter (fun p => decide (i + p ∈ ids))).map (fun p => l.getD p 0)).sum
      = l.sum := by
  induction l generalizing i with
  | nil => simp
  | cons x xs ih =>
    have h := ih (i + 1)
    rw [List.length_cons, List.range_succ_eq_map, List.filter_cons, List.filter_map, deleteFrom_cons]
    have e : ((fun p => decide (i + p ∈ ids)) ∘ Nat.succ) =
        (fun p => decide (i + 1 + p ∈ ids)) := by
      funext p; simp [Nat.succ_eq_add_one, Nat.add_comm, Nat.add_left_comm]
    rw [e]
    by_cases hi : i ∈ ids
    · simp only [hi, if_true, Nat.add_zero, decide_true, List.map_cons, List.map_map,
        List.sum_cons, List.getD_cons_zero]
      have e2 : ((fun p => (x :: xs).getD p 0) ∘ Nat.succ) = (fun p => xs.getD p 0) := by
        funext p; simp
      rw [e2]; omega
    · simp only [hi, if_false, Nat.add_zero, decide_false, List.map_map, List.sum_cons,
        Bool.false_eq_true]
      have e2 : ((fun p => (x :: xs).getD p 0) ∘ Nat.succ) = (fun p => xs.getD p 0) := by
        funext p; simp
      rw [e2]; omega

theorem perm_filter_range {ids : List Nat} {n : Nat} (hnd : ids.Nodup) (hlt : ∀ c ∈ ids, c < n) :
    List.Perm ((List.range n).filter (fun p => decide (p ∈ ids))) ids := by
  rw [List.perm_ext_iff_of_nodup (List.nodup_range.filter _) hnd]
  intro a
  simp only [List.mem_filter, List.mem_range, decide_eq_true_eq]
  exact ⟨fun h => h.2, fun h => ⟨hlt a h, h⟩⟩

theorem sum_npDelete {ids : List Nat} {l : Vec} (hnd : ids.Nodup) (hlt : ∀ c ∈ ids, c < l.length) :
    (npDelete ids l).sum + (ids.map (fun c => l.getD c 0)).sum = l.sum := by
  have h := sum_deleteFrom_aux ids 0 l
  simp only [Nat.zero_add] at h
  have hp := ((perm_filter_range hnd hlt).map (fun p => l.getD p 0)).sum_eq
  rw [hp] at h
  exact h

theorem getD_zipWith_mul {r x : Vec} (h : r.length = x.length) (j : Nat) :
    (List.zipWith (· * ·) r x).getD j 0 = r.getD j 0 * x.getD j 0 := by
  induction r generalizing x j with
  | nil => simp
  | cons a r ih => cases x with
    | nil => simp at h
    | cons b x =>
      simp only [List.length_cons, Nat.add_right_cancel_iff] at h
      cases j with
      | zero => simp
      | succ j => simpa using ih h j

theorem dot_npDelete {ids : List Nat} {r x : Vec} (hnd : ids.Nodup)
    (hlt : ∀ c ∈ ids, c < x.length) (hl : r.length = x.length) :
    dot (npDelete ids r) (npDelete ids x) + (ids.map (fun c => r.getD c 0 * x.getD c 0)).sum
      = dot r x := by
  rcases zipWith_deleteFrom (· * ·) ids 0 r x with h | h
  · have h1 : dot (npDelete ids r) (npDelete ids x) =
        (npDelete ids (List.zipWith (· * ·) r x)).sum := by
      unfold dot npDelete; rw [h]
    rw [h1]
    have h2 := sum_npDelete (ids := ids) (l := List.zipWith (· * ·) r x) hnd (by
      intro c hc; simpa [hl] using hlt c hc)
    have h3 : (fun c => r.getD c 0 * x.getD c 0) =
        (fun c => (List.zipWith (· * ·) r x).getD c 0) := by
      funext c; rw [getD_zipWith_mul hl]
    rw [h3]; exact h2
  · exact absurd hl h

/-- `length` after deleting in-range distinct positions. -/
theorem length_npDelete {α : Type} {ids : List Nat} {l : List α} (hnd : ids.Nodup)
    (hlt : ∀ c ∈ ids, c < l.length) : (npDelete ids l).length + ids.length = l.length := by
  have h := sum_npDelete (ids := ids) (l := List.replicate l.length 1) hnd (by simpa using hlt)
  have e1 : ∀ (m : List Int), (∀ a ∈ m, a = 1) → m.sum = m.length := by
    intro m hm
    induction m with
    | nil => rfl
    | cons a m ih =>
      simp only [List.mem_cons, forall_eq_or_imp] at hm
      simp [hm.1, ih hm.2]; ring
  rw [e1 (npDelete _ _) (by
      intro a ha
      have := mem_of_mem_npDelete ha
      exact (List.mem_replicate.1 this).2), e1 (ids.map _) (by
      intro a ha
      obtain ⟨c, hc, rfl⟩ := List.mem_map.1 ha
      simp [List.getD_eq_getElem?_getD, hlt c hc]), e1 (List.replicate _ _) (by
      intro a ha; exact (List.mem_replicate.1 ha).2)] at h
  have hl : (npDelete ids (List.replicate l.length (1 : Int))).length = (npDelete ids l).length :=
    length_npDelete_congr ids (by simp)
  rw [hl] at h
  simp only [List.length_map, List.length_replicate] at h
  omega

end TDS
