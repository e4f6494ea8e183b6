import Verif.Proof.Elim
import Verif.Proof.Fill

/-! The invariant of questions inside `solve_question`, and the generic step that assigns some
unknowns. -/

namespace TDS

/-- The bucket layout `loc`, `len` has widths `W`. -/
structure Lay (W loc : Vec) (len : Int) : Prop where
  diff : npDiff (loc ++ [len]) = W
  sum : W.sum = len
  wlen : loc.length = W.length
  pos : ∀ w ∈ W, 0 < w
  build : ∀ v : Vec, v.length = loc.length → Answer.mk' v loc len = .ok ⟨v, loc, len⟩

/-- Invariant of questions whose columns have been merged. -/
structure Inv (W : Vec) (Q : Question) : Prop where
  sys : Gauss.Sys (ncols Q.A) Q.A Q.b
  blen : Q.bounds.length = ncols Q.A
  brange : ∀ x ∈ Q.bounds, 0 ≤ x ∧ x ≤ 127
  quota0 : 0 ≤ Q.quota
  quota127 : Q.quota ≤ 127
  cols : ncols Q.A ≤ 63
  rows : Q.A.length ≤ 64 ∨ ncols Q.A < 2
  cov : ∀ j < ncols Q.A, ∃ r ∈ Q.A, r.getD j 0 ≠ 0
  dist : ∀ i < ncols Q.A, ∀ j < ncols Q.A, i ≠ j → ∃ r ∈ Q.A, r.getD i 0 ≠ r.getD j 0
  unk : unk Q.ans.v = ncols Q.A
  vlen : Q.ans.v.length = W.length
  vnn : ∀ a ∈ Q.ans.v, a = -1 ∨ 0 ≤ a
  lay : Lay W Q.ans.loc Q.ans.len
  cert : Cert (ncols Q.A) (Q.A.zip Q.b) Q.quota

/-- Admissible values of the unknowns. -/
structure Sol (Q : Question) (x : Vec) : Prop where
  len : x.length = ncols Q.A
  eq : ∀ p ∈ Q.A.zip Q.b, dot p.1 x = p.2
  bd : List.Forall₂ (fun a b => 0 ≤ a ∧ a ≤ b) x Q.bounds
  sum : x.sum = Q.quota

/-- Values of the unknowns that satisfy the inequalities. -/
structure SubS (Q : Question) (x : Vec) : Prop where
  len : x.length = ncols Q.A
  le : ∀ p ∈ Q.A.zip Q.b, dot p.1 x ≤ p.2
  bd : List.Forall₂ (fun a b => 0 ≤ a ∧ a ≤ b) x Q.bounds

/-- Admissible complete assignments, within bucket widths. -/
def SolY (W : Vec) (Q : Question) (y : Vec) : Prop :=
  ∃ x, Sol Q x ∧ y = fill Q.ans.v x ∧ List.Forall₂ (· ≤ ·) y W

/-- Complete assignments satisfying the inequalities. -/
def SubY (Q : Question) (y : Vec) : Prop := ∃ x, SubS Q x ∧ y = fill Q.ans.v x

theorem forall₂_nonneg {x bd : Vec} (h : List.Forall₂ (fun a b => 0 ≤ a ∧ a ≤ b) x bd) :
    ∀ a ∈ x, 0 ≤ a := by
  intro a ha
  induction h with
  | nil => simp at ha
  | cons h1 _ ih =>
    rcases List.mem_cons.1 ha with rfl | ha
    · exact h1.1
    · exact ih ha

theorem Sol.nonneg {Q : Question} {x : Vec} (h : Sol Q x) : ∀ a ∈ x, 0 ≤ a :=
  forall₂_nonneg h.bd

/-! ### more on deletion -/

/-- The positions that survive. -/
def keepIdx (ids : List Nat) (n : Nat) : List Nat := npDelete ids (List.range n)

theorem deleteFrom_map {α β : Type} (f : α → β) (ids : List Nat) (i : Nat) (l : List α) :
    deleteFrom ids i (l.map f) = (deleteFrom ids i l).map f := by
  induction l generalizing i with
  | nil => rfl
  | cons a l ih => simp only [List.map_cons, deleteFrom_cons, ih]; split <;> simp

theorem npDelete_eq_map {ids : List Nat} {l : Vec} {n : Nat} (h : l.length = n) :
    npDelete ids l = (keepIdx ids n).map (fun i => l.getD i 0) := by
  unfold keepIdx npDelete
  rw [← deleteFrom_map]
  congr 1
  subst h
  apply List.ext_getElem
  · simp
  · intro i h1 h2
    simp at h2
    simp [h2]

theorem deleteFrom_sublist {α : Type} (ids : List Nat) (i : Nat) (l : List α) :
    List.Sublist (deleteFrom ids i l) l := by
  induction l generalizing i with
  | nil => exact List.Sublist.refl _
  | cons a l ih =>
    rw [deleteFrom_cons]
    split
    · exact List.Sublist.cons _ (ih _)
    · exact List.Sublist.cons_cons _ (ih _)

theorem keepIdx_nodup (ids : List Nat) (n : Nat) : (keepIdx ids n).Nodup :=
  List.Nodup.sublist (deleteFrom_sublist _ _ _) List.nodup_range

theorem keepIdx_lt {ids : List Nat} {n c : Nat} (h : c ∈ keepIdx ids n) : c < n := by
  have := mem_of_mem_npDelete h
  simpa using this

theorem keepIdx_length {α : Type} {ids : List Nat} {l : List α} {n : Nat} (h : l.length = n) :
    (keepIdx ids n).length = (npDelete ids l).length :=
  length_npDelete_congr ids (by simp [h])

theorem getD_npDelete {ids : List Nat} {l : Vec} {n j : Nat} (h : l.length = n)
    (hj : j < (keepIdx ids n).length) :
    (npDelete ids l).getD j 0 = l.getD ((keepIdx ids n)[j]) 0 := by
  rw [npDelete_eq_map h, List.getD_eq_getElem _ _ (by simpa using hj)]
  simp

theorem forall₂_undelete {α β : Type} {P : α → β → Prop} {ids : List Nat} (d : α) (e : β) :
    ∀ (x : List α) (y : List β) (j : Nat), x.length = y.length →
    List.Forall₂ P (deleteFrom ids j x) (deleteFrom ids j y) →
    (∀ c ∈ ids, j ≤ c → c < j + x.length → P (x.getD (c - j) d) (y.getD (c - j) e)) →
    List.Forall₂ P x y := by
  intro x
  induction x with
  | nil => intro y j hl _ _; cases y with
    | nil => exact List.Forall₂.nil
    | cons _ _ => simp at hl
  | cons a x ih =>
    intro y j hl h hc
    cases y with
    | nil => simp at hl
    | cons b y =>
      simp only [List.length_cons, Nat.add_right_cancel_iff] at hl
      rw [deleteFrom_cons, deleteFrom_cons] at h
      have hc' : ∀ c ∈ ids, j + 1 ≤ c → c < j + 1 + x.length →
          P (x.getD (c - (j + 1)) d) (y.getD (c - (j + 1)) e) := by
        intro c h1 h2 h3
        have := hc c h1 (by omega) (by simp; omega)
        obtain ⟨k, hk⟩ : ∃ k, c - j = k + 1 := ⟨c - j - 1, by omega⟩
        have hk' : c - (j + 1) = k := by omega
        rw [hk] at this; rw [hk']; simpa using this
      by_cases hj : j ∈ ids
      · rw [if_pos hj, if_pos hj] at h
        have h0 := hc j hj (Nat.le_refl _) (by simp)
        simp only [Nat.sub_self, List.getD_cons_zero] at h0
        exact List.Forall₂.cons h0 (ih y (j + 1) hl h hc')
      · rw [if_neg hj, if_neg hj] at h
        cases h with
        | cons h1 h2 => exact List.Forall₂.cons h1 (ih y (j + 1) hl h2 hc')

/-! ### sums over lists -/

theorem sum_map_add' {α : Type} (l : List α) (f g : α → Int) :
    (l.map (fun a => f a + g a)).sum = (l.map f).sum + (l.map g).sum := by
  induction l with
  | nil => simp
  | cons a l ih => simp only [List.map_cons, List.sum_cons, ih]; ring

theorem sum_map_sub' {α : Type} (l : List α) (f g : α → Int) :
    (l.map (fun a => f a - g a)).sum = (l.map f).sum - (l.map g).sum := by
  induction l with
  | nil => simp
  | cons a l ih => simp only [List.map_cons, List.sum_cons, ih]; ring

theorem sum_map_mul_right' {α : Type} (l : List α) (f : α → Int) (c : Int) :
    (l.map (fun a => f a * c)).sum = (l.map f).sum * c := by
  induction l with
  | nil => simp
  | cons a l ih => simp only [List.map_cons, List.sum_cons, ih]; ring

theorem sum_map_comm' {α β : Type} (l : List α) (m : List β) (f : α → β → Int) :
    (l.map (fun a => (m.map (fun b => f a b)).sum)).sum =
      (m.map (fun b => (l.map (fun a => f a b)).sum)).sum := by
  induction l with
  | nil => simp
  | cons a l ih => simp only [List.map_cons, List.sum_cons, ih, sum_map_add']

theorem sum_nonneg' {α : Type} {l : List α} {f : α → Int} (h : ∀ a ∈ l, 0 ≤ f a) :
    0 ≤ (l.map f).sum := by
  induction l with
  | nil => simp
  | cons a l ih =>
    have := h a (by simp)
    have := ih (fun a ha => h a (by simp [ha]))
    simp only [List.map_cons, List.sum_cons]; omega

theorem zip_map_zipWith {α β γ δ : Type} (g : α → γ) (f : α → β → δ) (A : List α) (b : List β) :
    (A.map g).zip (List.zipWith f A b) = (A.zip b).map (fun p => (g p.1, f p.1 p.2)) := by
  induction A generalizing b with
  | nil => simp
  | cons a A ih => cases b with
    | nil => simp
    | cons c b => simp [ih]

/-! ### assigning columns -/

/-- Partial assignment `w` on `ids`. -/
def asgG (ids : List Nat) (w : Nat → Int) : Nat → Option Int :=
  fun c => if c ∈ ids then some (w c) else none

theorem asgG_isSome (ids : List Nat) (w : Nat → Int) (c : Nat) :
    c ∈ ids ↔ (asgG ids w c).isSome := by
  unfold asgG; split <;> simp_all

theorem asgG_some {ids : List Nat} {w : Nat → Int} {c : Nat} {y : Int}
    (h : asgG ids w c = some y) : c ∈ ids ∧ y = w c := by
  unfold asgG at h
  split at h
  · next hc => exact ⟨hc, by simpa using h.symm⟩
  · simp at h

theorem updAll_asgG {ids : List Nat} (hnd : ids.Nodup) (w : Nat → Int) :
    updAll (fun _ => none) (ids.map (fun c => (c, w c))) = asgG ids w := by
  have hfst : (ids.map (fun c => (c, w c))).map Prod.fst = ids := by
    rw [List.map_map]; simp [Function.comp_def]
  funext c
  unfold asgG
  split
  · next hc =>
    exact updAll_of_mem (by rw [hfst]; exact hnd) (List.mem_map.2 ⟨c, hc, rfl⟩)
  · next hc => exact updAll_of_not_mem (by rw [hfst]; exact hc)

/-- Set the unknowns `ids` to `w` and remove their columns. -/
def asg (Q : Question) (ids : List Nat) (w : Nat → Int) : Question :=
  { A := Q.A.map (npDelete ids)
    b := List.zipWith (fun r b => b - (ids.map (fun c => r.getD c 0 * w c)).sum) Q.A Q.b
    quota := Q.quota - (ids.map w).sum
    bounds := npDelete ids Q.bounds
    ans := { Q.ans with v := assignF (asgG ids w) 0 Q.ans.v } }

theorem ncols_map_npDelete {A : Mat} {C : Nat} (hne : A ≠ []) (hrect : ∀ r ∈ A, r.length = C)
    (ids : List Nat) : ncols (A.map (npDelete ids)) = (keepIdx ids C).length := by
  obtain ⟨r, A', rfl⟩ := List.exists_cons_of_ne_nil hne
  simp only [ncols, List.map_cons, List.headD_cons]
  exact (keepIdx_length (hrect r (by simp))).symm

section
variable {W : Vec} {Q : Question} {ids : List Nat} {w : Nat → Int}

theorem asg_ncols (h : Inv W Q) : ncols (asg Q ids w).A = (keepIdx ids (ncols Q.A)).length :=
  ncols_map_npDelete h.sys.ne h.sys.rect ids

theorem asg_ncols_add (h : Inv W Q) (hnd : ids.Nodup) (hlt : ∀ c ∈ ids, c < ncols Q.A) :
    ncols (asg Q ids w).A + ids.length = ncols Q.A := by
  rw [asg_ncols h]
  have := length_npDelete (l := List.range (ncols Q.A)) hnd (by simpa using hlt)
  simpa [keepIdx] using this

theorem asg_zip : (asg Q ids w).A.zip (asg Q ids w).b =
    (Q.A.zip Q.b).map (fun p => (npDelete ids p.1,
      p.2 - (ids.map (fun c => p.1.getD c 0 * w c)).sum)) := zip_map_zipWith _ _ _ _

/-- Certificate after assigning columns. -/
theorem asg_cert (h : Inv W Q) (hlt : ∀ c ∈ ids, c < ncols Q.A) :
    ∃ T : List (Vec × Int), (∀ p ∈ T, p ∈ (asg Q ids w).A.zip (asg Q ids w).b) ∧
      (∀ j < ncols (asg Q ids w).A, (T.map (fun p => p.1.getD j 0)).sum = 1) ∧
      (T.map Prod.snd).sum ≤ (asg Q ids w).quota := by
  obtain ⟨T, hT, hsum, hv⟩ := h.cert
  refine ⟨T.map (fun p => (npDelete ids p.1,
      p.2 - (ids.map (fun c => p.1.getD c 0 * w c)).sum)), ?_, ?_, ?_⟩
  · intro p hp
    obtain ⟨p', hp', rfl⟩ := List.mem_map.1 hp
    rw [asg_zip]
    exact List.mem_map_of_mem (hT p' hp')
  · intro j hj
    rw [asg_ncols h] at hj
    rw [List.map_map]
    have : ∀ p ∈ T, ((fun p : Vec × Int => p.1.getD j 0) ∘ (fun p => (npDelete ids p.1,
        p.2 - (ids.map (fun c => p.1.getD c 0 * w c)).sum))) p =
        p.1.getD ((keepIdx ids (ncols Q.A))[j]) 0 := by
      intro p hp
      exact getD_npDelete (h.sys.rect _ (List.of_mem_zip (hT p hp)).1) hj
    rw [List.map_congr_left this]
    exact hsum _ (keepIdx_lt (List.getElem_mem hj))
  · rw [List.map_map]
    have : (Prod.snd ∘ (fun p : Vec × Int => (npDelete ids p.1,
        p.2 - (ids.map (fun c => p.1.getD c 0 * w c)).sum))) =
        fun p => p.2 - (ids.map (fun c => p.1.getD c 0 * w c)).sum := rfl
    rw [this, sum_map_sub', sum_map_comm']
    have e : ∀ c ∈ ids, (T.map (fun p => p.1.getD c 0 * w c)).sum = w c := by
      intro c hc
      rw [sum_map_mul_right', hsum c (hlt c hc), one_mul]
    rw [List.map_congr_left e]
    have : (T.map (fun p => p.2)).sum ≤ Q.quota := hv
    show _ ≤ Q.quota - (ids.map w).sum
    exact Int.sub_le_sub_right this _

/-- With nonnegative right-hand sides the remaining quota is nonnegative. -/
theorem asg_quota_nonneg (h : Inv W Q) (hlt : ∀ c ∈ ids, c < ncols Q.A)
    (hb : ∀ x ∈ (asg Q ids w).b, 0 ≤ x) : 0 ≤ (asg Q ids w).quota := by
  obtain ⟨T, hT, -, hv⟩ := asg_cert (w := w) h hlt
  refine le_trans ?_ hv
  apply sum_nonneg'
  intro p hp
  exact hb _ (List.of_mem_zip (hT p hp)).2

theorem asg_inv (h : Inv W Q) (hnd : ids.Nodup) (hlt : ∀ c ∈ ids, c < ncols Q.A)
    (hw : ∀ c ∈ ids, 0 ≤ w c) (hb : ∀ x ∈ (asg Q ids w).b, 0 ≤ x) : Inv W (asg Q ids w) := by
  have hC := asg_ncols (ids := ids) (w := w) h
  have hCle : ncols (asg Q ids w).A ≤ ncols Q.A := by
    have := asg_ncols_add (w := w) h hnd hlt; omega
  have hwsum : 0 ≤ (ids.map w).sum := sum_nonneg' hw
  have hlenA : (asg Q ids w).A.length = Q.A.length := by simp [asg]
  have hblen : (asg Q ids w).b.length = Q.A.length := by
    simp [asg, h.sys.len]
  refine
    { sys := ⟨?_, ?_, ?_, ?_, ?_⟩
      blen := ?_, brange := ?_, quota0 := asg_quota_nonneg h hlt hb, quota127 := ?_
      cols := ?_, rows := ?_, cov := ?_, dist := ?_, unk := ?_, vlen := ?_, vnn := ?_
      lay := h.lay, cert := asg_cert h hlt }
  · simpa [asg] using h.sys.ne
  · rw [hblen, hlenA]
  · intro r hr
    obtain ⟨r', hr', rfl⟩ := List.mem_map.1 hr
    rw [hC]; exact (keepIdx_length (h.sys.rect r' hr')).symm
  · intro r hr
    obtain ⟨r', hr', rfl⟩ := List.mem_map.1 hr
    intro a ha
    exact h.sys.bin r' hr' a (mem_of_mem_npDelete ha)
  · intro x hx
    refine ⟨hb x hx, ?_⟩
    unfold asg at hx
    obtain ⟨i, hi, rfl⟩ := List.getElem_of_mem hx
    simp only [List.getElem_zipWith]
    simp only [List.length_zipWith] at hi
    have h1 := h.sys.range (Q.b[i]'(by omega)) (List.getElem_mem _)
    have h2 : 0 ≤ (ids.map (fun c => (Q.A[i]'(by omega)).getD c 0 * w c)).sum := by
      apply sum_nonneg'
      intro c hc
      have := hw c hc
      rcases (h.sys.bin (Q.A[i]'(by omega)) (List.getElem_mem _)).getD c with h3 | h3 <;>
        rw [h3] <;> omega
    omega
  · rw [hC]; exact (keepIdx_length h.blen).symm
  · intro x hx; exact h.brange x (mem_of_mem_npDelete hx)
  · have := h.quota127
    simp only [asg]; omega
  · exact hCle.trans h.cols
  · rw [hlenA]
    rcases h.rows with h1 | h1
    · exact Or.inl h1
    · right; omega
  · intro j hj
    rw [hC] at hj
    obtain ⟨r, hr, hne⟩ := h.cov _ (keepIdx_lt (List.getElem_mem hj))
    refine ⟨npDelete ids r, List.mem_map_of_mem hr, ?_⟩
    rw [getD_npDelete (h.sys.rect r hr) hj]; exact hne
  · intro i hi j hj hij
    rw [hC] at hi hj
    have hne : (keepIdx ids (ncols Q.A))[i] ≠ (keepIdx ids (ncols Q.A))[j] := by
      intro he
      exact hij ((List.Nodup.getElem_inj_iff (keepIdx_nodup _ _)).1 he)
    obtain ⟨r, hr, hne⟩ := h.dist _ (keepIdx_lt (List.getElem_mem hi)) _
      (keepIdx_lt (List.getElem_mem hj)) hne
    refine ⟨npDelete ids r, List.mem_map_of_mem hr, ?_⟩
    rw [getD_npDelete (h.sys.rect r hr) hi, getD_npDelete (h.sys.rect r hr) hj]; exact hne
  · rw [hC]
    exact unk_assignF (asgG_isSome ids w) (by
      intro c y hy
      obtain ⟨hc, rfl⟩ := asgG_some hy
      have := hw c hc; omega) Q.ans.v 0 (List.range (ncols Q.A)) (by simp [h.unk])
  · simp only [asg, assignF_length]; exact h.vlen
  · apply assignF_mem
    · intro c y hy
      obtain ⟨hc, rfl⟩ := asgG_some hy
      exact Or.inr (hw c hc)
    · exact Or.inl rfl
    · exact h.vnn

theorem asgG_ne (hw : ∀ c ∈ ids, 0 ≤ w c) : ∀ c y, asgG ids w c = some y → y ≠ -1 := by
  intro c y hy
  obtain ⟨hc, rfl⟩ := asgG_some hy
  have := hw c hc; omega

theorem asg_fill (h : Inv W Q) (hw : ∀ c ∈ ids, 0 ≤ w c) {x : Vec} (hx : x.length = ncols Q.A)
    (hxw : ∀ c ∈ ids, x.getD c 0 = w c) :
    fill (asg Q ids w).ans.v (npDelete ids x) = fill Q.ans.v x := by
  apply fill_assignF (asgG_isSome ids w) (asgG_ne hw)
  · rw [hx, h.unk]
  · intro c y _ _ hy
    obtain ⟨hc, rfl⟩ := asgG_some hy
    exact hxw c hc

theorem asg_dot (h : Inv W Q) (hnd : ids.Nodup) (hlt : ∀ c ∈ ids, c < ncols Q.A) {x : Vec}
    (hx : x.length = ncols Q.A) (hxw : ∀ c ∈ ids, x.getD c 0 = w c) {r : Vec} (hr : r ∈ Q.A) :
    dot (npDelete ids r) (npDelete ids x) + (ids.map (fun c => r.getD c 0 * w c)).sum
      = dot r x := by
  rw [← dot_npDelete (r := r) (x := x) hnd (by rw [hx]; exact hlt) (by rw [h.sys.rect r hr, hx])]
  congr 2
  apply List.map_congr_left
  intro c hc
  rw [hxw c hc]

theorem asg_sol (h : Inv W Q) (hnd : ids.Nodup) (hlt : ∀ c ∈ ids, c < ncols Q.A) {x : Vec}
    (hs : Sol Q x) (hxw : ∀ c ∈ ids, x.getD c 0 = w c) :
    Sol (asg Q ids w) (npDelete ids x) := by
  refine ⟨?_, ?_, ?_, ?_⟩
  · rw [asg_ncols h]; exact (keepIdx_length hs.len).symm
  · intro p hp
    rw [asg_zip] at hp
    obtain ⟨p', hp', rfl⟩ := List.mem_map.1 hp
    have := asg_dot h hnd hlt hs.len hxw (List.of_mem_zip hp').1
    rw [hs.eq p' hp'] at this
    simp only; omega
  · exact forall₂_npDelete hs.bd ids
  · have h1 := sum_npDelete (l := x) hnd (by rw [hs.len]; exact hlt)
    rw [List.map_congr_left hxw, hs.sum] at h1
    simp only [asg]; omega

theorem asg_solY (h : Inv W Q) (hnd : ids.Nodup) (hlt : ∀ c ∈ ids, c < ncols Q.A)
    (hw : ∀ c ∈ ids, 0 ≤ w c) {x y : Vec} (hs : Sol Q x) (hxw : ∀ c ∈ ids, x.getD c 0 = w c)
    (hy : y = fill Q.ans.v x) (hyW : List.Forall₂ (· ≤ ·) y W) : SolY W (asg Q ids w) y :=
  ⟨npDelete ids x, asg_sol h hnd hlt hs hxw, by rw [asg_fill h hw hs.len hxw]; exact hy, hyW⟩

theorem asg_subY (h : Inv W Q) (hnd : ids.Nodup) (hlt : ∀ c ∈ ids, c < ncols Q.A)
    (hw : ∀ c ∈ ids, 0 ≤ w c) (hwb : ∀ c ∈ ids, w c ≤ Q.bounds.getD c 0) {y : Vec}
    (hs : SubY (asg Q ids w) y) :
    ∃ x, SubS Q x ∧ y = fill Q.ans.v x ∧ ∀ c ∈ ids, x.getD c 0 = w c := by
  obtain ⟨x', hx', hy⟩ := hs
  obtain ⟨x, h1, h2, h3⟩ := exists_undelete ids w (ncols Q.A) 0 x' (by
    rw [hx'.len, asg_ncols h]
    exact keepIdx_length (by simp))
  have hxw : ∀ c ∈ ids, x.getD c 0 = w c := fun c hc => h3 c hc (Nat.zero_le _) (by
    have := hlt c hc; omega)
  have h2' : npDelete ids x = x' := h2
  refine ⟨x, ⟨h1, ?_, ?_⟩, ?_, hxw⟩
  · intro p hp
    have e1 := asg_dot h hnd hlt h1 hxw (List.of_mem_zip hp).1
    have e2 := hx'.le _ (by rw [asg_zip]; exact List.mem_map_of_mem hp)
    simp only [h2'] at e1 e2
    omega
  · refine forall₂_undelete (ids := ids) 0 0 x Q.bounds 0 (by rw [h1, h.blen]) ?_ ?_
    · have := hx'.bd
      rw [← h2'] at this; exact this
    · intro c hc _ _
      rw [Nat.sub_zero, hxw c hc]
      exact ⟨hw c hc, hwb c hc⟩
  · rw [hy, ← h2', asg_fill h hw h1 hxw]

end

end TDS
