import Verif.Proof.Keys
import Mathlib.Logic.Relation

/-! Elimination: order lemmas, the reduction relation, termination. -/

namespace TDS.Gauss

/-! ### the order -/

theorem Entry.le_iff (a b : Entry) : a.le b = true ↔
    a.k < b.k ∨ (a.k = b.k ∧ (a.i < b.i ∨ (a.i = b.i ∧ a.v ≤ b.v))) := by
  unfold Entry.le
  split
  · next h => simp [h]
  · split
    · next h1 h2 => simp; omega
    · split
      · next h1 h2 h3 => simp; omega
      · split
        · simp; omega
        · simp; omega

theorem Entry.le_refl (a : Entry) : a.le a = true := by rw [Entry.le_iff]; omega
theorem Entry.le_trans {a b c : Entry} (h : a.le b = true) (h' : b.le c = true) :
    a.le c = true := by
  rw [Entry.le_iff] at *; omega
theorem Entry.le_of_not {a b : Entry} (h : ¬ a.le b = true) : b.le a = true := by
  rw [Entry.le_iff] at *; omega
theorem Entry.le_antisymm {a b : Entry} (h : a.le b = true) (h' : b.le a = true) : a = b := by
  rw [Entry.le_iff] at *
  cases a; cases b
  simp only [Entry.mk.injEq]
  simp only at h h'
  omega

/-- Sorted by the tuple order. -/
def Sorted (l : List Entry) : Prop := l.Pairwise (fun a b => a.le b = true)

theorem sinsert_perm (x : Entry) (l : List Entry) : List.Perm (sinsert x l) (x :: l) := by
  induction l with
  | nil => exact List.Perm.refl _
  | cons y ys ih =>
    simp only [sinsert]
    split
    · exact List.Perm.refl _
    · exact (List.Perm.cons y ih).trans (List.Perm.swap x y ys)

theorem ssort_perm (l : List Entry) : List.Perm (ssort l) l := by
  induction l with
  | nil => exact List.Perm.refl _
  | cons x xs ih => exact (sinsert_perm x _).trans (List.Perm.cons x ih)

theorem sinsert_sorted {x : Entry} {l : List Entry} (h : Sorted l) : Sorted (sinsert x l) := by
  induction l with
  | nil => simp [sinsert, Sorted]
  | cons y ys ih =>
    simp only [sinsert]
    unfold Sorted at *
    rw [List.pairwise_cons] at h
    split
    · next hle =>
      rw [List.pairwise_cons, List.pairwise_cons]
      refine ⟨?_, h⟩
      intro z hz
      rcases List.mem_cons.1 hz with rfl | hz
      · exact hle
      · exact Entry.le_trans hle (h.1 z hz)
    · next hle =>
      rw [List.pairwise_cons]
      refine ⟨?_, ih h.2⟩
      intro z hz
      rcases List.mem_cons.1 ((sinsert_perm x ys).mem_iff.1 hz) with rfl | hz
      · exact Entry.le_of_not hle
      · exact h.1 z hz

theorem ssort_sorted (l : List Entry) : Sorted (ssort l) := by
  induction l with
  | nil => simp [ssort, Sorted]
  | cons x xs ih => exact sinsert_sorted ih

theorem ssort_of_sorted {l : List Entry} (h : Sorted l) : ssort l = l := by
  induction l with
  | nil => rfl
  | cons x xs ih =>
    unfold Sorted at *
    rw [List.pairwise_cons] at h
    simp only [ssort, ih h.2]
    cases xs with
    | nil => rfl
    | cons y ys => simp [sinsert, h.1 y (by simp)]

theorem hmergeStep_perm {x : Entry} {xs : List Entry} {rest : List Entry → List Entry}
    (hr : ∀ ys, List.Perm (rest ys) (xs ++ ys)) (ys : List Entry) :
    List.Perm (hmergeStep x xs rest ys) (x :: xs ++ ys) := by
  induction ys with
  | nil => simp [hmergeStep]
  | cons y ys ih =>
    simp only [hmergeStep]
    split
    · exact List.Perm.cons x (hr _)
    · exact (List.Perm.cons y ih).trans (List.perm_middle (a := y) (l₁ := x :: xs)).symm

theorem hmerge_perm (xs ys : List Entry) : List.Perm (hmerge xs ys) (xs ++ ys) := by
  induction xs generalizing ys with
  | nil => exact List.Perm.refl _
  | cons x xs ih => exact hmergeStep_perm ih ys

theorem mem_hmerge {xs ys : List Entry} {e : Entry} : e ∈ hmerge xs ys ↔ e ∈ xs ∨ e ∈ ys := by
  rw [(hmerge_perm xs ys).mem_iff, List.mem_append]

theorem mem_ssort {l : List Entry} {e : Entry} : e ∈ ssort l ↔ e ∈ l := (ssort_perm l).mem_iff

theorem hmerge_singleton {m : Entry} {ys : List Entry} (h : ∀ y ∈ ys, m.le y = true) :
    hmerge [m] ys = m :: ys := by
  cases ys with
  | nil => rfl
  | cons y ys => simp [hmerge, hmergeStep, h y (by simp)]

/-! ### one step -/

/-- `e - m`. -/
def Entry.sub (e m : Entry) : Entry := ⟨e.k - m.k, e.i, e.v - m.v⟩

/-- What one reduction does to a system, up to order and multiplicity. -/
structure Step (hd hd' : List Entry) : Prop where
  fwd : ∀ e ∈ hd, e ∈ hd' ∨ ∃ m ∈ hd', isReducible m e = true ∧ 0 < m.k ∧
    (e.k ≤ m.k ∨ e.sub m ∈ hd')
  bwd : ∀ e' ∈ hd', e' ∈ hd ∨ ∃ m ∈ hd, ∃ e ∈ hd, isReducible m e = true ∧ 0 < m.k ∧
    e' = e.sub m ∧ 0 < e'.k

theorem Step.of_mem {a b : List Entry} (h : ∀ e, e ∈ a ↔ e ∈ b) : Step a b :=
  ⟨fun e he => Or.inl ((h e).1 he), fun e he => Or.inl ((h e).2 he)⟩

theorem Step.append {a b : List Entry} (hs : List Entry) (h : Step a b) :
    Step (hs ++ a) (hs ++ b) := by
  constructor
  · intro e he
    rcases List.mem_append.1 he with he | he
    · left; simp [he]
    · rcases h.fwd e he with h1 | ⟨m, hm, h1, h2, h3⟩
      · left; simp [h1]
      · right
        refine ⟨m, by simp [hm], h1, h2, ?_⟩
        rcases h3 with h3 | h3
        · exact Or.inl h3
        · right; simp [h3]
  · intro e he
    rcases List.mem_append.1 he with he | he
    · left; simp [he]
    · rcases h.bwd e he with h1 | ⟨m, hm, e', he', h1⟩
      · left; simp [h1]
      · right; exact ⟨m, by simp [hm], e', by simp [he'], h1⟩

/-- Reflexive-transitive closure of `Step`. -/
abbrev Reds := Relation.ReflTransGen Step

theorem mem_removeZeroKeys {h : List Entry} {e : Entry} :
    e ∈ removeZeroKeys h ↔ e ∈ h ∧ 0 < e.k := by
  simp [removeZeroKeys]

theorem gaussStep_of_pos {m : Entry} {rest hd : List Entry} (hs : ssort hd = m :: rest)
    (hm : 0 < m.k) :
    gaussStep hd =
      if ((rest.filter (isReducible m)).map (·.sub m)).isEmpty then
        .ok (false, hmerge [m] (rest.filter (fun e => !isReducible m e)))
      else
        .ok (true, hmerge (hmerge [m] (removeZeroKeys ((rest.filter (isReducible m)).map (·.sub m))))
          (rest.filter (fun e => !isReducible m e))) := by
  unfold gaussStep
  simp only [hs, hm, gt_iff_lt, decide_true, pyAssert_true, ok_bind]
  rfl

/-- Shape of an unsimplified step. -/
theorem gaussStep_false {hd hd' : List Entry} (h : gaussStep hd = .ok (false, hd')) :
    ∃ m rest, ssort hd = m :: rest ∧ hd' = m :: rest ∧ ∀ e ∈ rest, isReducible m e = false := by
  cases hs : ssort hd with
  | nil => simp [gaussStep, hs] at h
  | cons m rest =>
    have hsorted := ssort_sorted hd
    rw [hs] at hsorted
    unfold Sorted at hsorted
    rw [List.pairwise_cons] at hsorted
    by_cases hm : 0 < m.k
    · rw [gaussStep_of_pos hs hm] at h
      split at h
      · next hemp =>
        simp only [Except.ok.injEq, Prod.mk.injEq, true_and] at h
        have hirr : ∀ e ∈ rest, isReducible m e = false := by
          simp only [List.isEmpty_iff, List.map_eq_nil_iff, List.filter_eq_nil_iff] at hemp
          intro e he; simpa using hemp e he
        refine ⟨m, rest, rfl, ?_, hirr⟩
        have hf : rest.filter (fun e => !isReducible m e) = rest := by
          rw [List.filter_eq_self]; intro e he; simp [hirr e he]
        rw [hf, hmerge_singleton hsorted.1] at h
        exact h.symm
      · simp at h
    · unfold gaussStep at h
      simp [hs, hm] at h

/-- A simplified step is a `Step`, does not grow the list and strictly lowers the key sum. -/
theorem gaussStep_true {hd hd' : List Entry} (h : gaussStep hd = .ok (true, hd')) :
    ∃ m rest, ssort hd = m :: rest ∧ 0 < m.k ∧ (∃ e ∈ rest, isReducible m e = true) ∧
      hd' = hmerge (hmerge [m] (removeZeroKeys ((rest.filter (isReducible m)).map (·.sub m))))
          (rest.filter (fun e => !isReducible m e)) := by
  cases hs : ssort hd with
  | nil => simp [gaussStep, hs] at h
  | cons m rest =>
    by_cases hm : 0 < m.k
    · rw [gaussStep_of_pos hs hm] at h
      split at h
      · simp at h
      · next hemp =>
        simp only [Except.ok.injEq, Prod.mk.injEq, true_and] at h
        refine ⟨m, rest, rfl, hm, ?_, h.symm⟩
        simp only [List.isEmpty_iff, List.map_eq_nil_iff, List.filter_eq_nil_iff] at hemp
        push Not at hemp
        obtain ⟨e, he, h1⟩ := hemp
        exact ⟨e, he, by simpa using h1⟩
    · unfold gaussStep at h
      simp [hs, hm] at h

theorem gaussStep_total {hd : List Entry} (hne : hd ≠ []) (hpos : ∀ e ∈ hd, 0 < e.k) :
    ∃ r, gaussStep hd = .ok r := by
  cases hs : ssort hd with
  | nil =>
    have := (ssort_perm hd).length_eq
    rw [hs] at this
    exact absurd (List.eq_nil_of_length_eq_zero this.symm) hne
  | cons m rest =>
    have hm : 0 < m.k := hpos m (mem_ssort.1 (by rw [hs]; simp))
    rw [gaussStep_of_pos hs hm]
    split <;> exact ⟨_, rfl⟩

theorem gaussStep_step {hd hd' : List Entry} (hpos : ∀ e ∈ hd, 0 < e.k)
    (h : gaussStep hd = .ok (true, hd')) : Step hd hd' := by
  obtain ⟨m, rest, hs, hm, -, rfl⟩ := gaussStep_true h
  have hmem : ∀ e, e ∈ hd ↔ e = m ∨ e ∈ rest := by
    intro e; rw [← mem_ssort, hs, List.mem_cons]
  have hmem' : ∀ e, e ∈ hmerge (hmerge [m]
      (removeZeroKeys ((rest.filter (isReducible m)).map (·.sub m))))
      (rest.filter (fun e => !isReducible m e)) ↔
      e = m ∨ ((∃ a ∈ rest, isReducible m a = true ∧ a.sub m = e) ∧ 0 < e.k) ∨
        (e ∈ rest ∧ isReducible m e = false) := by
    intro e
    simp only [mem_hmerge, mem_removeZeroKeys, List.mem_map, List.mem_filter, List.mem_singleton,
      Bool.not_eq_true', and_assoc]
    rw [or_assoc]
  constructor
  · intro e he
    rcases (hmem e).1 he with rfl | he'
    · left; rw [hmem']; simp
    · cases hr : isReducible m e with
      | false => left; rw [hmem']; right; right; exact ⟨he', hr⟩
      | true =>
        right
        refine ⟨m, by rw [hmem']; simp, hr, hm, ?_⟩
        by_cases hk : e.k ≤ m.k
        · exact Or.inl hk
        · right; rw [hmem']; right; left
          exact ⟨⟨e, he', hr, rfl⟩, by simp [Entry.sub]; omega⟩
  · intro e he
    rw [hmem'] at he
    rcases he with rfl | ⟨⟨a, ha, hr, rfl⟩, hk⟩ | ⟨he, -⟩
    · left; rw [hmem]; simp
    · right
      exact ⟨m, by rw [hmem]; simp, a, by rw [hmem]; exact Or.inr ha, hr, hm, rfl, hk⟩
    · left; rw [hmem]; exact Or.inr he

/-- Sum of the keys. -/
def keySum (l : List Entry) : Nat := (l.map (fun e => e.k.toNat)).sum

theorem keySum_perm {a b : List Entry} (h : List.Perm a b) : keySum a = keySum b :=
  (h.map _).sum_eq

theorem keySum_append (a b : List Entry) : keySum (a ++ b) = keySum a + keySum b := by
  simp [keySum]

theorem keySum_cons (a : Entry) (b : List Entry) : keySum (a :: b) = a.k.toNat + keySum b := by
  simp [keySum]

theorem keySum_reduced (m : Entry) (hm : 0 < m.k) (l : List Entry) :
    keySum (removeZeroKeys (l.map (·.sub m))) ≤ keySum l ∧
    (removeZeroKeys (l.map (·.sub m))).length ≤ l.length ∧
    (l ≠ [] → (∀ e ∈ l, 0 < e.k) → keySum (removeZeroKeys (l.map (·.sub m))) < keySum l) := by
  induction l with
  | nil => simp [removeZeroKeys, keySum]
  | cons a t ih =>
    obtain ⟨h1, h2, -⟩ := ih
    simp only [removeZeroKeys, List.map_cons, List.filter_cons] at *
    have e : (a.sub m).k = a.k - m.k := rfl
    split
    · next hk =>
      simp only [gt_iff_lt, decide_eq_true_eq, e] at hk
      simp only [keySum_cons, List.length_cons, e]
      refine ⟨by omega, by omega, ?_⟩
      intro _ hp
      have := hp a (by simp)
      omega
    · simp only [keySum_cons, List.length_cons]
      refine ⟨by omega, by omega, ?_⟩
      intro _ hp
      have := hp a (by simp)
      omega

theorem gaussStep_measure {hd hd' : List Entry} (hpos : ∀ e ∈ hd, 0 < e.k)
    (h : gaussStep hd = .ok (true, hd')) :
    keySum hd' < keySum hd ∧ hd'.length ≤ hd.length ∧ (∀ e ∈ hd', 0 < e.k) := by
  obtain ⟨m, rest, hs, hm, ⟨e, he, hr⟩, rfl⟩ := gaussStep_true h
  have hposr : ∀ e ∈ rest, 0 < e.k := by
    intro e he; exact hpos e (mem_ssort.1 (by rw [hs]; simp [he]))
  have hp : List.Perm (m :: rest) hd := by rw [← hs]; exact ssort_perm hd
  have hsplit : List.Perm (rest.filter (isReducible m) ++
      rest.filter (fun e => !isReducible m e)) rest := List.filter_append_perm _ _
  have hred := keySum_reduced m hm (rest.filter (isReducible m))
  have hne : rest.filter (isReducible m) ≠ [] := by
    intro h0; rw [List.filter_eq_nil_iff] at h0; exact h0 e he hr
  have hlt := hred.2.2 hne (by intro a ha; exact hposr a (List.mem_filter.1 ha).1)
  refine ⟨?_, ?_, ?_⟩
  · rw [keySum_perm (hmerge_perm _ _), keySum_append, keySum_perm (hmerge_perm _ _),
      List.singleton_append, keySum_cons, ← keySum_perm hp, keySum_cons, ← keySum_perm hsplit,
      keySum_append]
    omega
  · rw [(hmerge_perm _ _).length_eq, List.length_append, (hmerge_perm _ _).length_eq,
      List.singleton_append, List.length_cons, ← hp.length_eq, List.length_cons,
      ← hsplit.length_eq, List.length_append]
    omega
  · intro a ha
    simp only [mem_hmerge, mem_removeZeroKeys, List.mem_filter, List.mem_singleton] at ha
    rcases ha with (rfl | ⟨_, h⟩) | ⟨h, _⟩
    · exact hm
    · exact h
    · exact hposr a h

/-! ### the loop -/

/-- Sorted and no entry reduces a later one. -/
def Final (l : List Entry) : Prop :=
  l.Pairwise (fun a b => a.le b = true ∧ isReducible a b = false)

theorem Final.sorted {l : List Entry} (h : Final l) : Sorted l := List.Pairwise.imp And.left h

theorem elimLoop_spec (n : Nat) : ∀ (N : Nat) (hs hd : List Entry),
    (∀ e ∈ hs ++ hd, 0 < e.k) → (hs ++ hd).length ≤ N →
    keySum (hs ++ hd) * (N + 1) + hd.length ≤ n →
    Final hs → (∀ a ∈ hs, ∀ b ∈ hd, a.le b = true ∧ isReducible a b = false) →
    ∃ out, elimLoop n hs hd = .ok out ∧ Reds (hs ++ hd) out ∧ Final out ∧
      (∀ e ∈ out, 0 < e.k) ∧ out.length ≤ N := by
  induction n with
  | zero =>
    intro N hs hd hpos hN hn hfin hcross
    have : hd = [] := List.eq_nil_of_length_eq_zero (by omega)
    subst this
    refine ⟨hs, by simp [elimLoop], ?_, hfin, by simpa using hpos, by simpa using hN⟩
    simp
    exact Relation.ReflTransGen.refl
  | succ n ih =>
    intro N hs hd hpos hN hn hfin hcross
    cases hd with
    | nil =>
      refine ⟨hs, by simp [elimLoop], ?_, hfin, by simpa using hpos, by simpa using hN⟩
      simp
      exact Relation.ReflTransGen.refl
    | cons h t =>
      have hposd : ∀ e ∈ h :: t, 0 < e.k := fun e he => hpos e (by simp [List.mem_append, he])
      obtain ⟨⟨fl, hd'⟩, hg⟩ := gaussStep_total (by simp) hposd
      have hstep : elimLoop (n + 1) hs (h :: t) =
          (if fl then elimLoop n [] (hmerge hs hd') else
            match ssort hd' with
            | [] => .error .index
            | m :: rest => elimLoop n (hs ++ [m]) rest) := by
        rw [elimLoop, hg]; rfl
      rw [hstep]
      cases fl with
      | true =>
        simp only [if_true]
        obtain ⟨h1, h2, h3⟩ := gaussStep_measure hposd hg
        have hst := gaussStep_step hposd hg
        have hpm := hmerge_perm hs hd'
        have hkey : keySum (hs ++ hd') < keySum (hs ++ h :: t) := by
          rw [keySum_append, keySum_append]; omega
        have hlen : (hs ++ hd').length ≤ N := by
          rw [List.length_append] at *; omega
        obtain ⟨out, ho, hr, hf, hp, hl⟩ := ih N [] (hmerge hs hd')
          (by
            intro e he
            rw [List.nil_append, hpm.mem_iff, List.mem_append] at he
            rcases he with he | he
            · exact hpos e (by simp [he])
            · exact h3 e he)
          (by rw [List.nil_append, hpm.length_eq]; exact hlen)
          (by
            rw [List.nil_append, keySum_perm hpm, hpm.length_eq]
            have : (keySum (hs ++ hd') + 1) * (N + 1) ≤ keySum (hs ++ h :: t) * (N + 1) :=
              Nat.mul_le_mul_right _ hkey
            rw [Nat.add_mul] at this
            simp only [List.length_cons] at hn
            omega)
          (by simp [Final]) (by simp)
        refine ⟨out, ho, ?_, hf, hp, hl⟩
        rw [List.nil_append] at hr
        refine Relation.ReflTransGen.head (hst.append hs) ?_
        refine Relation.ReflTransGen.head (Step.of_mem ?_) hr
        intro e; rw [hpm.mem_iff]
      | false =>
        obtain ⟨m, rest, hs1, rfl, hirr⟩ := gaussStep_false hg
        have hsorted := ssort_sorted (h :: t)
        rw [hs1] at hsorted
        simp only [Bool.false_eq_true, if_false, ssort_of_sorted hsorted]
        have hperm : List.Perm (m :: rest) (h :: t) := by rw [← hs1]; exact ssort_perm _
        have hperm2 : List.Perm (hs ++ [m] ++ rest) (hs ++ h :: t) := by
          rw [List.append_assoc, List.singleton_append]; exact hperm.append_left hs
        have hmle := (List.pairwise_cons.1 hsorted).1
        obtain ⟨out, ho, hr, hf, hp, hl⟩ := ih N (hs ++ [m]) rest
          (by intro e he; exact hpos e (hperm2.mem_iff.1 he))
          (by rw [hperm2.length_eq]; exact hN)
          (by
            rw [keySum_perm hperm2]
            have := hperm.length_eq
            simp only [List.length_cons] at this hn
            omega)
          (by
            unfold Final
            rw [List.pairwise_append]
            refine ⟨hfin, List.pairwise_singleton _ _, ?_⟩
            intro a ha b hb
            rw [List.mem_singleton] at hb; subst hb
            exact hcross a ha _ (hperm.mem_iff.1 (by simp)))
          (by
            intro a ha b hb
            rcases List.mem_append.1 ha with ha | ha
            · exact hcross a ha b (hperm.mem_iff.1 (by simp [hb]))
            · rw [List.mem_singleton] at ha; subst ha
              exact ⟨hmle b hb, hirr b hb⟩)
        refine ⟨out, ho, ?_, hf, hp, hl⟩
        refine Relation.ReflTransGen.head (Step.of_mem ?_) hr
        intro e; rw [hperm2.mem_iff]

theorem removeZeroKeys_pos {h : List Entry} : ∀ e ∈ removeZeroKeys h, 0 < e.k := by
  intro e he; exact (mem_removeZeroKeys.1 he).2

theorem elimList_spec (hd : List Entry) :
    ∃ out, elimList hd = .ok out ∧ Reds (removeZeroKeys hd) out ∧ Final out ∧
      (∀ e ∈ out, 0 < e.k) ∧ out.length ≤ (removeZeroKeys hd).length := by
  unfold elimList
  simp only []
  split
  · next hl =>
    refine ⟨_, rfl, Relation.ReflTransGen.refl, ?_, removeZeroKeys_pos, Nat.le_refl _⟩
    unfold Final
    rcases hx : removeZeroKeys hd with _ | ⟨a, _ | ⟨b, t⟩⟩
    · simp
    · simp
    · rw [hx] at hl; simp at hl
  · have hperm := ssort_perm (removeZeroKeys hd)
    obtain ⟨out, h1, h2, h3, h4, h5⟩ := elimLoop_spec (elimFuel (removeZeroKeys hd))
      (removeZeroKeys hd).length [] (ssort (removeZeroKeys hd))
      (by intro e he; exact removeZeroKeys_pos e (mem_ssort.1 (by simpa using he)))
      (by simp [hperm.length_eq])
      (by
        rw [List.nil_append, keySum_perm hperm, hperm.length_eq]
        unfold elimFuel keySum
        rw [Nat.add_mul]
        omega)
      (by simp [Final]) (by simp)
    refine ⟨out, h1, ?_, h3, h4, h5⟩
    refine Relation.ReflTransGen.head (Step.of_mem ?_) h2
    intro e; rw [List.nil_append, mem_ssort]

/-- A sorted irreducible list is left unchanged by the loop. -/
theorem elimLoop_final (n : Nat) : ∀ (hs hd : List Entry), Final (hs ++ hd) →
    (∀ e ∈ hd, 0 < e.k) → hd.length ≤ n → elimLoop n hs hd = .ok (hs ++ hd) := by
  induction n with
  | zero =>
    intro hs hd _ _ hn
    have : hd = [] := List.eq_nil_of_length_eq_zero (by omega)
    subst this; simp [elimLoop]
  | succ n ih =>
    intro hs hd hf hpos hn
    cases hd with
    | nil => simp [elimLoop]
    | cons m rest =>
      have hfd : Final (m :: rest) := (List.pairwise_append.1 hf).2.1
      have hsrt := ssort_of_sorted hfd.sorted
      have hirr : ∀ e ∈ rest, isReducible m e = false :=
        fun e he => ((List.pairwise_cons.1 hfd).1 e he).2
      have hf1 : rest.filter (isReducible m) = [] := by
        rw [List.filter_eq_nil_iff]; intro e he; simp [hirr e he]
      have hf2 : rest.filter (fun e => !isReducible m e) = rest := by
        rw [List.filter_eq_self]; intro e he; simp [hirr e he]
      have hg : gaussStep (m :: rest) = .ok (false, m :: rest) := by
        rw [gaussStep_of_pos hsrt (hpos m (by simp)), hf1, hf2]
        simp only [List.map_nil, List.isEmpty_nil, if_true]
        rw [hmerge_singleton (fun y hy => ((List.pairwise_cons.1 hfd).1 y hy).1)]
      rw [elimLoop, hg]
      simp only [ok_bind, Bool.false_eq_true, if_false, hsrt]
      rw [ih (hs ++ [m]) rest (by simpa using hf) (fun e he => hpos e (by simp [he]))
        (by simp at hn; omega)]
      simp

theorem elimList_final {hd : List Entry} (hf : Final hd) (hpos : ∀ e ∈ hd, 0 < e.k) :
    elimList hd = .ok hd := by
  have hz : removeZeroKeys hd = hd := by
    unfold removeZeroKeys; rw [List.filter_eq_self]; intro e he; simp [hpos e he]
  unfold elimList
  simp only [hz]
  split
  · rfl
  · rw [ssort_of_sorted hf.sorted, elimLoop_final _ [] hd (by simpa using hf) hpos]
    · simp
    · unfold elimFuel
      rw [Nat.add_mul]; omega

end TDS.Gauss
