import Verif.Model.Solver
import Verif.Proof.Basic

/-! Assigning values to unknowns. -/

namespace TDS

/-- Number of unknown entries. -/
def unk (v : Vec) : Nat := v.countP (fun a => a == UNKNOWN)

/-- Replace the unknown entries of `v`, in order, by the entries of `x`. -/
def fill : Vec → Vec → Vec
  | [], _ => []
  | a :: v, x =>
    if a = -1 then
      match x with
      | [] => a :: fill v []
      | y :: x' => y :: fill v x'
    else a :: fill v x

theorem fill_known {a : Int} {v x : Vec} (h : a ≠ -1) : fill (a :: v) x = a :: fill v x := by
  conv_lhs => unfold fill
  rw [if_neg h]
theorem fill_unknown {y : Int} {v x : Vec} : fill ((-1) :: v) (y :: x) = y :: fill v x := by
  conv_lhs => unfold fill
  rw [if_pos rfl]

/-- Replace the unknowns number `c` (counted from `j`) for which `g c = some y` by `y`. -/
def assignF (g : Nat → Option Int) : Nat → Vec → Vec
  | _, [] => []
  | j, a :: v =>
    if a = -1 then (g j).getD (-1) :: assignF g (j + 1) v else a :: assignF g j v

theorem unk_nil : unk [] = 0 := rfl
theorem unk_cons (a : Int) (v : Vec) : unk (a :: v) = unk v + if a = -1 then 1 else 0 := by
  unfold unk
  rw [List.countP_cons]
  simp [UNKNOWN]

theorem unknownLoc_length (a : Answer) : a.unknownLoc.length = unk a.v := by
  unfold Answer.unknownLoc npWhere unk
  have : ∀ (v : Vec) (i : Nat), (whereFrom (fun x => x == UNKNOWN) i v).length =
      v.countP (fun a => a == UNKNOWN) := by
    intro v
    induction v with
    | nil => intro i; rfl
    | cons a v ih =>
      intro i
      rw [whereFrom, List.countP_cons]
      split <;> simp_all
  exact this _ _

@[simp] theorem fill_length (v x : Vec) : (fill v x).length = v.length := by
  induction v generalizing x with
  | nil => rfl
  | cons a v ih =>
    unfold fill
    split
    · cases x <;> simp [ih]
    · simp [ih]

@[simp] theorem assignF_length (g : Nat → Option Int) (j : Nat) (v : Vec) :
    (assignF g j v).length = v.length := by
  induction v generalizing j with
  | nil => rfl
  | cons a v ih => unfold assignF; split <;> simp [ih]

/-- Nothing assigned. -/
theorem assignF_none (j : Nat) (v : Vec) : assignF (fun _ => none) j v = v := by
  induction v generalizing j with
  | nil => rfl
  | cons a v ih =>
    unfold assignF
    split
    · next h => simp [ih, h]
    · simp [ih]

theorem assignF_congr {g g' : Nat → Option Int} {j : Nat} (h : ∀ c, j ≤ c → g c = g' c) (v : Vec) :
    assignF g j v = assignF g' j v := by
  induction v generalizing j with
  | nil => rfl
  | cons a v ih =>
    unfold assignF
    split
    · rw [h j (Nat.le_refl _), ih (fun c hc => h c (by omega))]
    · rw [ih h]

/-- Point update of an assignment. -/
def upd (g : Nat → Option Int) (c : Nat) (x : Int) : Nat → Option Int :=
  fun d => if d = c then some x else g d

theorem whereFrom_ge (p : Int → Bool) (v : Vec) (i : Nat) : ∀ n ∈ whereFrom p i v, i ≤ n := by
  induction v generalizing i with
  | nil => simp [whereFrom]
  | cons a v ih =>
    intro n hn
    rw [whereFrom] at hn
    split at hn
    · rcases List.mem_cons.1 hn with rfl | hn
      · exact Nat.le_refl _
      · have := ih (i + 1) n hn; omega
    · have := ih (i + 1) n hn; omega

theorem set_assignF (g : Nat → Option Int) (v : Vec) : ∀ (i j c : Nat) (x : Int) (p : Nat),
    j ≤ c → (whereFrom (fun x => x == UNKNOWN) i v)[c - j]? = some p →
    i ≤ p ∧ (assignF g j v).set (p - i) x = assignF (upd g c x) j v := by
  induction v with
  | nil => intro i j c x p _ h; simp [whereFrom] at h
  | cons a v ih =>
    intro i j c x p hjc h
    rw [whereFrom] at h
    by_cases ha : a = -1
    · have ha' : (a == UNKNOWN) = true := by simp [ha, UNKNOWN]
      rw [ha', if_pos rfl] at h
      unfold assignF
      simp only [ha, if_true]
      by_cases hc : c = j
      · subst hc
        simp only [Nat.sub_self, List.getElem?_cons_zero, Option.some.injEq] at h
        subst h
        refine ⟨Nat.le_refl _, ?_⟩
        simp only [Nat.sub_self, List.set_cons_zero, upd, if_true, Option.getD_some]
        congr 1
        apply assignF_congr
        intro d hd
        have : d ≠ c := by omega
        simp [upd, this]
      · obtain ⟨d, hd⟩ : ∃ d, c - j = d + 1 := ⟨c - j - 1, by omega⟩
        rw [hd, List.getElem?_cons_succ] at h
        have hd' : c - (j + 1) = d := by omega
        rw [← hd'] at h
        obtain ⟨h1, h2⟩ := ih (i + 1) (j + 1) c x p (by omega) h
        refine ⟨by omega, ?_⟩
        obtain ⟨e, he⟩ : ∃ e, p - i = e + 1 := ⟨p - i - 1, by omega⟩
        have he' : p - (i + 1) = e := by omega
        rw [he, List.set_cons_succ, ← he', h2]
        have : ¬ j = c := by omega
        simp [upd, this]
    · have ha' : (a == UNKNOWN) = false := by simp [ha, UNKNOWN]
      rw [ha', if_neg (by simp)] at h
      unfold assignF
      simp only [ha, if_false]
      obtain ⟨h1, h2⟩ := ih (i + 1) j c x p hjc h
      refine ⟨by omega, ?_⟩
      obtain ⟨e, he⟩ : ∃ e, p - i = e + 1 := ⟨p - i - 1, by omega⟩
      have he' : p - (i + 1) = e := by omega
      rw [he, List.set_cons_succ, ← he', h2]

/-- The assignments of a list, later ones winning, on top of `g`. -/
def updAll (g : Nat → Option Int) : List (Nat × Int) → Nat → Option Int
  | [] => g
  | (c, x) :: t => updAll (upd g c x) t

theorem assignAll_eq {a : Answer} {g : Nat → Option Int} {L : List (Nat × Int)}
    (h : ∀ p ∈ L, p.1 < unk a.v) :
    assignAll a.unknownLoc (assignF g 0 a.v) L = .ok (assignF (updAll g L) 0 a.v) := by
  induction L generalizing g with
  | nil => rfl
  | cons p L ih =>
    obtain ⟨c, x⟩ := p
    have hc : c < a.unknownLoc.length := by
      rw [unknownLoc_length]; exact h (c, x) (by simp)
    rw [assignAll, pyGet_of_lt hc]
    simp only [ok_bind]
    have := set_assignF g a.v 0 0 c x a.unknownLoc[c] (Nat.zero_le _) (by
      rw [Nat.sub_zero, List.getElem?_eq_getElem (by exact hc)]; rfl)
    rw [Nat.sub_zero] at this
    rw [this.2, ih (fun p hp => h p (by simp [hp]))]
    rfl

theorem assignAll_eq' {a : Answer} {L : List (Nat × Int)} (h : ∀ p ∈ L, p.1 < unk a.v) :
    assignAll a.unknownLoc a.v L = .ok (assignF (updAll (fun _ => none) L) 0 a.v) := by
  have := assignAll_eq (g := fun _ => none) h
  rwa [assignF_none] at this

theorem updAll_of_not_mem {g : Nat → Option Int} {L : List (Nat × Int)} {c : Nat}
    (h : c ∉ L.map Prod.fst) : updAll g L c = g c := by
  induction L generalizing g with
  | nil => rfl
  | cons p L ih =>
    obtain ⟨d, x⟩ := p
    simp only [List.map_cons, List.mem_cons, not_or] at h
    rw [updAll, ih h.2]
    simp [upd, h.1]

theorem updAll_of_mem {g : Nat → Option Int} {L : List (Nat × Int)} {c : Nat} {x : Int}
    (hnd : (L.map Prod.fst).Nodup) (h : (c, x) ∈ L) : updAll g L c = some x := by
  induction L generalizing g with
  | nil => simp at h
  | cons p L ih =>
    obtain ⟨d, y⟩ := p
    simp only [List.map_cons, List.nodup_cons] at hnd
    rw [updAll]
    rcases List.mem_cons.1 h with h | h
    · cases h
      rw [updAll_of_not_mem hnd.1]
      simp [upd]
    · exact ih hnd.2 h

/-- Assigning some unknowns and filling in the rest. -/
theorem fill_assignF {g : Nat → Option Int} {ids : List Nat}
    (hids : ∀ c, c ∈ ids ↔ (g c).isSome) (hg : ∀ c y, g c = some y → y ≠ -1) :
    ∀ (v : Vec) (j : Nat) (x : Vec), x.length = unk v →
    (∀ c y, j ≤ c → c < j + x.length → g c = some y → x.getD (c - j) 0 = y) →
    fill (assignF g j v) (deleteFrom ids j x) = fill v x := by
  intro v
  induction v with
  | nil => intro j x _ _; rfl
  | cons a v ih =>
    intro j x hx hgx
    rw [unk_cons] at hx
    by_cases ha : a = -1
    · simp only [ha, if_true] at hx
      cases x with
      | nil => simp at hx
      | cons y x =>
        simp only [List.length_cons, Nat.add_right_cancel_iff] at hx
        have hih := ih (j + 1) x hx (by
          intro c z hc hc' hz
          have := hgx c z (by omega) (by simp; omega) hz
          obtain ⟨e, he⟩ : ∃ e, c - j = e + 1 := ⟨c - j - 1, by omega⟩
          rw [he] at this
          have he' : c - (j + 1) = e := by omega
          rw [he']; simpa using this)
        rw [assignF, if_pos ha, deleteFrom_cons]
        subst ha
        rw [fill_unknown]
        by_cases hj : j ∈ ids
        · obtain ⟨z, hz⟩ := Option.isSome_iff_exists.1 ((hids j).1 hj)
          have hzy := hgx j z (Nat.le_refl _) (by simp) hz
          simp only [Nat.sub_self, List.getD_cons_zero] at hzy
          rw [if_pos hj, hz, Option.getD_some, fill_known (hg j z hz), hih, hzy]
        · have hn : g j = none := by
            cases hgj : g j with
            | none => rfl
            | some z => exact absurd ((hids j).2 (by rw [hgj]; rfl)) hj
          rw [if_neg hj, hn, Option.getD_none, fill_unknown, hih]
    · simp only [ha, if_false] at hx
      rw [assignF, if_neg ha, fill_known ha, fill_known ha, ih j x hx hgx]

theorem unk_assignF {g : Nat → Option Int} {ids : List Nat}
    (hids : ∀ c, c ∈ ids ↔ (g c).isSome) (hg : ∀ c y, g c = some y → y ≠ -1) {α : Type} :
    ∀ (v : Vec) (j : Nat) (x : List α), x.length = unk v →
    unk (assignF g j v) = (deleteFrom ids j x).length := by
  intro v
  induction v with
  | nil => intro j x hx; cases x with
    | nil => rfl
    | cons _ _ => simp [unk_nil] at hx
  | cons a v ih =>
    intro j x hx
    rw [unk_cons] at hx
    by_cases ha : a = -1
    · simp only [ha, if_true] at hx
      cases x with
      | nil => simp at hx
      | cons y x =>
        simp only [List.length_cons, Nat.add_right_cancel_iff] at hx
        rw [assignF, if_pos ha, deleteFrom_cons, unk_cons, ih (j + 1) x hx]
        by_cases hj : j ∈ ids
        · obtain ⟨z, hz⟩ := Option.isSome_iff_exists.1 ((hids j).1 hj)
          have := hg j z hz
          rw [if_pos hj, hz, Option.getD_some, if_neg this]; rfl
        · have hn : g j = none := by
            cases hgj : g j with
            | none => rfl
            | some z => exact absurd ((hids j).2 (by rw [hgj]; rfl)) hj
          rw [if_neg hj, hn, Option.getD_none, if_pos rfl, List.length_cons]
    · simp only [ha, if_false] at hx
      rw [assignF, if_neg ha, unk_cons, if_neg ha, ih j x hx]; rfl

theorem assignF_mem {g : Nat → Option Int} {P : Int → Prop} (hg : ∀ c y, g c = some y → P y)
    (hm : P (-1)) : ∀ (v : Vec) (j : Nat), (∀ a ∈ v, P a) → ∀ a ∈ assignF g j v, P a := by
  intro v
  induction v with
  | nil => intro j _ a ha; simp [assignF] at ha
  | cons b v ih =>
    intro j hv a ha
    rw [assignF] at ha
    split at ha
    · rcases List.mem_cons.1 ha with rfl | ha
      · cases hgj : g j with
        | none => exact hm
        | some y => exact hg j y hgj
      · exact ih _ (fun a ha => hv a (by simp [ha])) a ha
    · rcases List.mem_cons.1 ha with rfl | ha
      · exact hv a (by simp)
      · exact ih _ (fun a ha => hv a (by simp [ha])) a ha

/-- Undo a deletion, with prescribed values at the deleted positions. -/
theorem exists_undelete (ids : List Nat) (w : Nat → Int) : ∀ (n j : Nat) (x' : Vec),
    x'.length = (deleteFrom ids j (List.replicate n (0 : Int))).length →
    ∃ x : Vec, x.length = n ∧ deleteFrom ids j x = x' ∧
      ∀ c, c ∈ ids → j ≤ c → c < j + n → x.getD (c - j) 0 = w c := by
  intro n
  induction n with
  | zero =>
    intro j x' hx'
    refine ⟨[], rfl, ?_, fun c _ h1 h2 => by omega⟩
    simp at hx'; simp [hx']
  | succ n ih =>
    intro j x' hx'
    rw [List.replicate_succ, deleteFrom_cons] at hx'
    by_cases hj : j ∈ ids
    · rw [if_pos hj] at hx'
      obtain ⟨x, h1, h2, h3⟩ := ih (j + 1) x' hx'
      refine ⟨w j :: x, by simp [h1], by rw [deleteFrom_cons, if_pos hj, h2], ?_⟩
      intro c hc h4 h5
      by_cases hcj : c = j
      · subst hcj; simp
      · obtain ⟨e, he⟩ : ∃ e, c - j = e + 1 := ⟨c - j - 1, by omega⟩
        have he' : c - (j + 1) = e := by omega
        rw [he, List.getD_cons_succ, ← he']
        exact h3 c hc (by omega) (by omega)
    · rw [if_neg hj] at hx'
      cases x' with
      | nil => simp at hx'
      | cons y x' =>
        simp only [List.length_cons, Nat.add_right_cancel_iff] at hx'
        obtain ⟨x, h1, h2, h3⟩ := ih (j + 1) x' hx'
        refine ⟨y :: x, by simp [h1], by rw [deleteFrom_cons, if_neg hj, h2], ?_⟩
        intro c hc h4 h5
        have hcj : c ≠ j := by intro h; subst h; exact hj hc
        obtain ⟨e, he⟩ : ∃ e, c - j = e + 1 := ⟨c - j - 1, by omega⟩
        have he' : c - (j + 1) = e := by omega
        rw [he, List.getD_cons_succ, ← he']
        exact h3 c hc (by omega) (by omega)

/-- No unknowns: nothing to fill. -/
theorem fill_of_unk_zero {v x : Vec} (h : unk v = 0) : fill v x = v := by
  induction v generalizing x with
  | nil => rfl
  | cons a v ih =>
    rw [unk_cons] at h
    by_cases ha : a = -1
    · simp [ha] at h
    · rw [fill_known ha, ih (by rw [if_neg ha] at h; omega)]

/-- Known entries stay. -/
theorem fill_getD_known {v x : Vec} {p : Nat} (h : v.getD p 0 ≠ -1) :
    (fill v x).getD p 0 = v.getD p 0 := by
  induction v generalizing x p with
  | nil => rfl
  | cons a v ih =>
    cases p with
    | zero =>
      simp only [List.getD_cons_zero] at h
      rw [fill_known h]; rfl
    | succ p =>
      rw [List.getD_cons_succ] at h
      unfold fill
      split
      · cases x <;> simp only [List.getD_cons_succ] <;> exact ih h
      · simp only [List.getD_cons_succ]; exact ih h

end TDS
