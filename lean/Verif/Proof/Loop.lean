import Verif.Proof.Steps

/-! The simplification loop and forks. -/

namespace TDS

/-! ### a pass that keeps the number of unknowns reaches a fixpoint -/

theorem asg_nil {W : Vec} {Q : Question} (h : Inv W Q) (w : Nat → Int) : asg Q [] w = Q := by
  have hb : List.zipWith (fun (r : Vec) (b : Int) =>
      b - (([] : List Nat).map (fun c => r.getD c 0 * w c)).sum) Q.A Q.b = Q.b := by
    apply List.ext_getElem
    · simp [h.sys.len]
    · intro i h1 h2; simp
  have hA : Q.A.map (npDelete []) = Q.A := by
    conv_rhs => rw [← List.map_id Q.A]
    apply List.map_congr_left
    intro r _; simp
  have hv : assignF (asgG [] w) 0 Q.ans.v = Q.ans.v := by
    have : asgG [] w = fun _ => none := by funext c; simp [asgG]
    rw [this, assignF_none]
  unfold asg
  rw [hb, hA, hv]
  simp

theorem checkAfter_eq {Q Q' : Question} (h : checkAfter Q = .ok Q') : Q' = Q := by
  unfold checkAfter at h
  dsimp only at h
  split at h
  · cases h
  · obtain ⟨_, -, h⟩ := bind_eq_ok.1 h
    split at h
    · cases h
    · obtain ⟨q, -, h⟩ := bind_eq_ok.1 h
      split at h
      · cases h
      · cases h; rfl

/-- The parts of an `ok` pass. -/
theorem reducePass_parts {Q Q' : Question} (h : reducePass Q = .ok Q') :
    ∃ Q1 Q2 Q3, reduceCol Q = .ok Q1 ∧ eliminate Q1 = .ok Q2 ∧ zeroInB Q2 = .ok Q3 ∧
      only1 Q3 = .ok Q' := by
  unfold reducePass at h
  obtain ⟨Q1, h1, h⟩ := bind_eq_ok.1 h
  obtain ⟨Q2, h2, h⟩ := bind_eq_ok.1 h
  obtain ⟨Q3, h3, h⟩ := bind_eq_ok.1 h
  exact ⟨Q1, Q2, Q3, h1, h2, h3, h⟩

theorem reduceCol_eq {W : Vec} {Q Q' : Question} (h : Inv W Q) (hq : reduceCol Q = .ok Q') :
    Q' = Q := by
  unfold reduceCol at hq
  rw [reduceColBody_id h] at hq
  exact checkAfter_eq hq

theorem only1_check {Q Q' : Question} (h : only1 Q = .ok Q') : checkAfter Q' = .ok Q' := by
  unfold only1 at h
  obtain ⟨Q1, -, h2⟩ := bind_eq_ok.1 h
  have := checkAfter_eq h2
  subst this
  exact h2

theorem reducePass_fix {W : Vec} {Q Q' : Question} (h : Inv W Q) (hp : reducePass Q = .ok Q')
    (hC : ncols Q'.A = ncols Q.A) : reducePass Q' = .ok Q' := by
  obtain ⟨Q1, Q2, Q3, h1, h2, h3, h4⟩ := reducePass_parts hp
  have := reduceCol_eq h h1
  subst this
  obtain ⟨A', b', he, hn, hst, hid⟩ := eliminateBody_ok h
  have hchk := only1_check h4
  -- eliminate
  unfold eliminate at h2
  rw [he] at h2
  have e2 := checkAfter_eq h2
  have hi2 : Inv W Q2 := by rw [e2]; exact hst.ok.1
  have hn2 : ncols Q2.A = ncols Q1.A := by rw [e2]; exact hn
  -- zero_in_b
  have hz := (zeroInB_ok hi2)
  rw [h3] at hz
  have hi3 : Inv W Q3 := hz.ok.1
  have hle3 := hz.ok.2.1
  have ho := only1With_ok hi3 (Bounds.oneElementRowLocs_ok Q3.A)
  have h4' := h4
  unfold only1 at h4'
  obtain ⟨Q4, h5, h6⟩ := bind_eq_ok.1 h4'
  have e4 := checkAfter_eq h6
  subst e4
  have hrc : Bounds.oneElementRowLocs Q3.A = [] ∧ Q' = Q3 := by
    rcases ho.2 Q' h5 with h7 | h7
    · exact h7
    · have := h7.2; omega
  obtain ⟨hrc, e3⟩ := hrc
  subst e3
  -- the zero list is empty
  have h3' := h3
  unfold zeroInB at h3'
  rw [zeroInBBody_eq hi2] at h3'
  have e5 := checkAfter_eq h3'
  have hb2 := (setBounds_ok hi2).ok.1
  set bd := Bounds.lowerUpperBound Q2.A Q2.b Q2.bounds with hbd
  have hzl : (Bounds.zeroBoundLoc bd) = [] := by
    have := asg_ncols_add (ids := Bounds.zeroBoundLoc bd) (w := fun _ => 0) hb2 (npWhere_nodup _ _)
      (by
        intro c hc
        have h7 := (mem_zeroBoundLoc.1 hc).1
        have h8 := hb2.blen
        simp only at h8 ⊢
        omega)
    rw [← e5] at this
    simp only at this
    exact List.eq_nil_of_length_eq_zero (by omega)
  rw [hzl, asg_nil hb2] at e5
  -- now Q' = Q2 with bounds bd
  have hlub : Bounds.lowerUpperBound Q'.A Q'.b Q'.bounds = Q'.bounds := by
    rw [e5]
    simp only
    rw [hbd, Bounds.lowerUpperBound_eq, Bounds.lowerUpperBound_eq]
    apply Bounds.lub_idem
    intro p hp
    rw [hi2.blen]; exact hi2.sys.rect _ (List.of_mem_zip hp).1
  have g1 : reduceCol Q' = .ok Q' := by
    unfold reduceCol; rw [reduceColBody_id hi3]; exact hchk
  have g2 : eliminate Q' = .ok Q' := by
    unfold eliminate eliminateBody
    by_cases h0 : ncols Q'.A = 0
    · rw [if_pos h0]; exact hchk
    · rw [if_neg h0]
      have hA : Q'.A = A' := by rw [e5, e2]
      have hb : Q'.b = b' := by rw [e5, e2]
      have hid' := hid (by omega)
      rw [← hA, ← hb] at hid'
      rw [hid']
      have hall : Q'.b.all (fun x => decide (x ≥ 0)) = true := by
        rw [List.all_eq_true]; intro x hx; simpa using (hi3.sys.range x hx).1
      simp only [ok_bind, hall, pyAssert_true]
      exact hchk
  have g3 : zeroInB Q' = .ok Q' := by
    unfold zeroInB
    rw [zeroInBBody_eq hi3, hlub]
    have : Bounds.zeroBoundLoc Q'.bounds = [] := by rw [e5]; exact hzl
    have e6 : ({ Q' with bounds := Q'.bounds } : Question) = Q' := rfl
    rw [this, e6, asg_nil hi3]
    exact hchk
  have g4 : only1 Q' = .ok Q' := h4
  unfold reducePass
  rw [g1]; simp only [ok_bind]
  rw [g2]; simp only [ok_bind]
  rw [g3]; simp only [ok_bind]
  exact g4

/-- Outcome of the simplification loop. -/
def LoopOK (W : Vec) (Q : Question) (r : Res Question) : Prop :=
  StepOK W Q r ∧ ∀ Q', r = .ok Q' → reducePass Q' = .ok Q' ∧ checkAfter Q' = .ok Q'

theorem reduceLoop_ok {W : Vec} (n : Nat) : ∀ {Q : Question}, Inv W Q → ncols Q.A + 2 ≤ n →
    LoopOK W Q (reduceLoop n Q) := by
  induction n with
  | zero => intro Q _ hn; omega
  | succ n ih =>
    intro Q h hn
    have hp := reducePass_ok h
    rw [reduceLoop]
    cases hr : reducePass Q with
    | error e =>
      rw [hr] at hp
      exact ⟨hp, by intro Q' hQ'; cases hQ'⟩
    | ok Q' =>
      rw [hr] at hp
      simp only [ok_bind]
      have hchk : checkAfter Q' = .ok Q' := by
        obtain ⟨_, _, _, _, _, _, h4⟩ := reducePass_parts hr
        exact only1_check h4
      split
      · next heq =>
        refine ⟨hp, ?_⟩
        intro Q'' hQ''
        cases hQ''
        exact ⟨by rw [heq] at hr ⊢; exact hr, hchk⟩
      · have hle := hp.ok.2.1
        by_cases hlt : ncols Q'.A < ncols Q.A
        · have := ih hp.ok.1 (by omega)
          exact ⟨hp.trans this.1, this.2⟩
        · have hfix := reducePass_fix h hr (by omega)
          obtain ⟨n, rfl⟩ : ∃ m, n = m + 1 := ⟨n - 1, by omega⟩
          rw [reduceLoop, hfix]
          simp only [ok_bind, if_true]
          refine ⟨hp, ?_⟩
          intro Q'' hQ''
          cases hQ''
          exact ⟨hfix, hchk⟩

/-! ### forks -/

theorem argminFrom_lt (l : Vec) (i : Nat) (hne : l ≠ []) :
    ∃ j x, argminFrom i l = some (j, x) ∧ i ≤ j ∧ j < i + l.length := by
  induction l generalizing i with
  | nil => exact absurd rfl hne
  | cons a l ih =>
    rw [argminFrom]
    by_cases hl : l = []
    · subst hl; exact ⟨i, a, rfl, by omega, by simp⟩
    · obtain ⟨j, x, h1, h2, h3⟩ := ih (i + 1) hl
      rw [h1]
      simp only [List.length_cons]
      split
      · exact ⟨i, a, rfl, by omega, by omega⟩
      · exact ⟨j, x, rfl, by omega, by omega⟩

theorem argminFrom_spec (l : Vec) (i : Nat) {j : Nat} {x : Int} (h : argminFrom i l = some (j, x)) :
    i ≤ j ∧ l.getD (j - i) 0 = x ∧ (∀ y ∈ l, x ≤ y) ∧ ∀ n < j - i, x < l.getD n 0 := by
  induction l generalizing i j x with
  | nil => simp [argminFrom] at h
  | cons a l ih =>
    rw [argminFrom] at h
    cases hl : argminFrom (i + 1) l with
    | none =>
      have hn : l = [] := by
        by_contra hne
        obtain ⟨j, x, h1, -⟩ := argminFrom_lt l (i + 1) hne
        rw [hl] at h1
        cases h1
      subst hn
      rw [hl] at h
      cases h
      simp
    | some p =>
      obtain ⟨j', x'⟩ := p
      rw [hl] at h
      obtain ⟨h1, h2, h3, h4⟩ := ih (i + 1) hl
      simp only at h
      split at h
      · rename_i hle
        cases h
        refine ⟨le_refl _, by simp, ?_, by simp⟩
        intro y hy
        rcases List.mem_cons.1 hy with rfl | hy
        · exact le_refl _
        · exact hle.trans (h3 y hy)
      · rename_i hlt
        cases h
        obtain ⟨d, hd⟩ : ∃ d, j - i = d + 1 := ⟨j - i - 1, by omega⟩
        have hd' : j - (i + 1) = d := by omega
        rw [hd'] at h2 h4
        refine ⟨by omega, by rw [hd, List.getD_cons_succ]; exact h2, ?_, ?_⟩
        · intro y hy
          rcases List.mem_cons.1 hy with rfl | hy
          · omega
          · exact h3 y hy
        · intro n hn
          cases n with
          | zero => rw [List.getD_cons_zero]; omega
          | succ n => rw [List.getD_cons_succ]; exact h4 n (by omega)

/-- `np.argmin` is the first position of the least element. -/
theorem npArgmin_spec {l : Vec} {j : Nat} (h : npArgmin l = .ok j) :
    (∀ y ∈ l, l.getD j 0 ≤ y) ∧ ∀ n < j, l.getD j 0 < l.getD n 0 := by
  unfold npArgmin at h
  cases hl : argminFrom 0 l with
  | none => rw [hl] at h; cases h
  | some p =>
    obtain ⟨j', x⟩ := p
    rw [hl] at h
    cases h
    obtain ⟨-, h2, h3, h4⟩ := argminFrom_spec l 0 hl
    rw [Nat.sub_zero] at h2 h4
    rw [h2]
    exact ⟨h3, h4⟩

theorem npArgmin_ok {l : Vec} (hne : l ≠ []) : ∃ j, npArgmin l = .ok j ∧ j < l.length := by
  obtain ⟨j, x, h1, h2, h3⟩ := argminFrom_lt l 0 hne
  refine ⟨j, ?_, by omega⟩
  unfold npArgmin; rw [h1]

theorem mem_pyRange {a b q : Int} : q ∈ Fork.pyRange a b ↔ a ≤ q ∧ q < b := by
  unfold Fork.pyRange
  rw [List.mem_map]
  constructor
  · rintro ⟨n, hn, rfl⟩
    rw [List.mem_range] at hn
    omega
  · rintro ⟨h1, h2⟩
    exact ⟨(q - a).toNat, by rw [List.mem_range]; omega, by omega⟩

theorem pyRange_pairwise (a b : Int) : (Fork.pyRange a b).Pairwise (· < ·) := by
  unfold Fork.pyRange
  rw [List.pairwise_map]
  refine List.Pairwise.imp ?_ List.pairwise_lt_range
  intro x y h; omega

theorem enum_ok {quota : Int} {bd : Vec} {j : Nat} (hj : j < bd.length) :
    Fork.enum quota bd j = .ok ((Fork.pyRange (max 0 (quota - (npDelete [j] bd).sum))
      (bd.getD j 0 + 1)).map (fun q => (q, quota - q))) := by
  unfold Fork.enum Fork.popEle
  rw [pyGet_of_lt hj, List.getD_eq_getElem _ _ hj]
  rfl

/-- The test in `fork_enum` that lets a child through. -/
def childOK (Q : Question) (j : Nat) (q : Int) : Bool :=
  (asg Q [j] (fun _ => q)).b.all (fun x => decide (0 ≤ x))

/-- The values tried by `fork_enum`. -/
def forkVals (Q : Question) (j : Nat) : List Int :=
  (Fork.pyRange (max 0 (Q.quota - (npDelete [j] Q.bounds).sum)) (Q.bounds.getD j 0 + 1)).filter
    (childOK Q j)

theorem filterMap_ite {α β : Type} (l : List α) (p : α → Bool) (f : α → β) :
    (l.map (fun a => if p a then some (f a) else none)).filterMap id = (l.filter p).map f := by
  induction l with
  | nil => rfl
  | cons a l ih =>
    rw [List.map_cons, List.filter_cons]
    by_cases h : p a = true
    · rw [if_pos h, if_pos h, List.filterMap_cons, List.map_cons, ← ih]; rfl
    · rw [if_neg h, if_neg h, List.filterMap_cons, ← ih]; rfl

theorem forkEnum_eq' {W : Vec} {Q : Question} (h : Inv W Q) (hc : checkAfter Q = .ok Q)
    (h0 : 0 < ncols Q.A) :
    ∃ j < ncols Q.A, npArgmin Q.bounds = .ok j ∧ forkEnum Q = .ok ((forkVals Q j).map (fun q => asg Q [j] (fun _ => q))) := by
  have hbne : Q.bounds ≠ [] := by
    intro he; have := h.blen; rw [he] at this; simp at this; omega
  obtain ⟨j, hj, hjlt⟩ := npArgmin_ok hbne
  have hjC : j < ncols Q.A := by rw [← h.blen]; exact hjlt
  refine ⟨j, hjC, hj, ?_⟩
  unfold forkEnum
  rw [hc]
  simp only [ok_bind]
  have hul : decide (Q.ans.unknownLoc.length > 0) = true := by
    rw [unknownLoc_length, h.unk]; simpa using h0
  rw [hul, hj]
  simp only [pyAssert_true, ok_bind, Fork.popCol]
  rw [enum_ok hjlt]
  simp only [ok_bind]
  set rng := Fork.pyRange (max 0 (Q.quota - (npDelete [j] Q.bounds).sum)) (Q.bounds.getD j 0 + 1)
    with hrng
  have hjul : j < Q.ans.unknownLoc.length := by rw [unknownLoc_length, h.unk]; exact hjC
  have hbody : ∀ qr ∈ rng.map (fun q => (q, Q.quota - q)), (do
      let newB := List.zipWith (fun b a => i8 (b - a * qr.1)) Q.b (col Q.A j)
      if newB.any (fun x => decide (x < 0)) then (.ok none : Res (Option Question))
      else do
        let p ← pyGet Q.ans.unknownLoc j
        let ans := { Q.ans with v := Q.ans.v.set p qr.1 }
        let q ← Question.mk' (Q.A.map (npDelete [j])) newB qr.2 (npDelete [j] Q.bounds) (some ans)
        .ok (some q)) =
      .ok ((fun qr : Int × Int => if childOK Q j qr.1 then some (asg Q [j] (fun _ => qr.1))
        else none) qr) := by
    intro qr hqr
    obtain ⟨q, hq, rfl⟩ := List.mem_map.1 hqr
    rw [hrng, mem_pyRange] at hq
    have hbj := h.brange (Q.bounds.getD j 0) (by
      rw [List.getD_eq_getElem _ _ hjlt]; exact List.getElem_mem _)
    have hnewB : List.zipWith (fun b a => i8 (b - a * q)) Q.b (col Q.A j) =
        (asg Q [j] (fun _ => q)).b := by
      unfold asg col
      apply List.ext_getElem
      · simp [h.sys.len]
      · intro i h1 h2
        simp only [List.length_zipWith, List.length_map] at h1
        have g1 := h.sys.range (Q.b[i]'(by omega)) (List.getElem_mem _)
        have g2 := (h.sys.bin (Q.A[i]'(by omega)) (List.getElem_mem _)).getD j
        simp only [List.getElem_zipWith, List.getElem_map, List.map_cons, List.map_nil,
          List.sum_cons, List.sum_nil, add_zero]
        rcases g2 with g2 | g2 <;> rw [g2] <;> apply i8_of_range <;> omega
    simp only []
    rw [hnewB]
    by_cases hany : ((asg Q [j] (fun _ => q)).b.any (fun x => decide (x < 0))) = true
    · rw [if_pos hany]
      have : childOK Q j q = false := by
        unfold childOK
        rw [List.any_eq_true] at hany
        obtain ⟨x, hx, hlt⟩ := hany
        rw [Bool.eq_false_iff]
        intro hall
        rw [List.all_eq_true] at hall
        have := hall x hx
        simp only [decide_eq_true_eq] at this hlt
        omega
      rw [if_neg (by rw [this]; simp)]
    · rw [if_neg hany]
      have hb : ∀ x ∈ (asg Q [j] (fun _ => q)).b, 0 ≤ x := by
        intro x hx
        by_contra hneg
        apply hany
        rw [List.any_eq_true]
        exact ⟨x, hx, by simpa using hneg⟩
      have hok : childOK Q j q = true := by
        unfold childOK; rw [List.all_eq_true]; intro x hx; simpa using hb x hx
      rw [if_pos hok, pyGet_of_lt hjul]
      simp only [ok_bind]
      have hlt1 : ∀ c ∈ [j], c < ncols Q.A := by simpa using hjC
      have hi := asg_inv (W := W) (ids := [j]) (w := fun _ => q) h (by simp) hlt1
        (by intro c _; omega) hb
      have hset := set_assignF (fun _ => none) Q.ans.v 0 0 j q Q.ans.unknownLoc[j] (Nat.zero_le _)
        (by rw [Nat.sub_zero, List.getElem?_eq_getElem (by exact hjul)]; rfl)
      rw [Nat.sub_zero, assignF_none] at hset
      have hupd : upd (fun _ => none) j q = asgG [j] (fun _ => q) := by
        funext c; simp [upd, asgG]
      rw [hset.2, hupd]
      have hquota : Q.quota - q = (asg Q [j] (fun _ => q)).quota := by simp [asg]
      rw [hquota]
      unfold Question.mk'
      have a1 : ((Q.A.map (npDelete [j])).length == (asg Q [j] (fun _ => q)).b.length) = true := by
        have := hi.sys.len
        simp only [beq_iff_eq]
        exact this.symm
      have a2 : (ncols (Q.A.map (npDelete [j])) == (npDelete [j] Q.bounds).length) = true := by
        have := hi.blen
        simp only [beq_iff_eq]
        exact this.symm
      have a3 : (asg Q [j] (fun _ => q)).b.all (fun x => decide (x ≥ 0)) = true := hok
      have a4 : decide ((asg Q [j] (fun _ => q)).quota ≥ 0) = true := by
        simpa using hi.quota0
      have a5 : (npDelete [j] Q.bounds).all (fun x => decide (x ≥ 0)) = true := by
        rw [List.all_eq_true]; intro x hx
        simpa using (h.brange x (mem_of_mem_npDelete hx)).1
      rw [a1, a2, a3, a4, a5]
      rfl
  refine Eq.trans (congrArg (fun r : Res (List (Option Question)) =>
    r >>= fun outs => Except.ok (List.filterMap id outs)) (mapM_ok hbody)) ?_
  simp only [ok_bind, List.map_map]
  have := filterMap_ite rng (childOK Q j) (fun q => asg Q [j] (fun _ => q))
  unfold forkVals
  rw [← this]
  rfl

theorem forkEnum_eq {W : Vec} {Q : Question} (h : Inv W Q) (hc : checkAfter Q = .ok Q)
    (h0 : 0 < ncols Q.A) :
    ∃ j < ncols Q.A, forkEnum Q = .ok ((forkVals Q j).map (fun q => asg Q [j] (fun _ => q))) := by
  obtain ⟨j, hj, -, he⟩ := forkEnum_eq' h hc h0
  exact ⟨j, hj, he⟩

theorem whereFrom_count {p : Int → Bool} {l : Vec} {i j q : Nat}
    (h : (whereFrom p i l)[j]? = some q) : i ≤ q ∧ (l.take (q - i)).countP p = j := by
  induction l generalizing i j with
  | nil => simp [whereFrom] at h
  | cons a l ih =>
    unfold whereFrom at h
    by_cases ha : p a = true
    · rw [if_pos ha] at h
      cases j with
      | zero =>
        simp only [List.getElem?_cons_zero, Option.some.injEq] at h
        subst h
        simp
      | succ j =>
        rw [List.getElem?_cons_succ] at h
        obtain ⟨h1, h2⟩ := ih h
        refine ⟨by omega, ?_⟩
        rw [show q - i = (q - (i + 1)) + 1 by omega, List.take_succ_cons, List.countP_cons_of_pos ha,
          h2]
    · rw [if_neg ha] at h
      obtain ⟨h1, h2⟩ := ih h
      refine ⟨by omega, ?_⟩
      rw [show q - i = (q - (i + 1)) + 1 by omega, List.take_succ_cons, List.countP_cons_of_neg ha, h2]

theorem fill_injective {v x x' : Vec} (hx : x.length = unk v) (hx' : x'.length = unk v)
    (h : fill v x = fill v x') : x = x' := by
  induction v generalizing x x' with
  | nil =>
    rw [unk_nil] at hx hx'
    rw [List.eq_nil_of_length_eq_zero hx, List.eq_nil_of_length_eq_zero hx']
  | cons a v ih =>
    rw [unk_cons] at hx hx'
    by_cases ha : a = -1
    · subst ha
      simp only [if_true] at hx hx'
      cases x with
      | nil => simp at hx
      | cons y x => cases x' with
        | nil => simp at hx'
        | cons y' x' =>
          rw [fill_unknown, fill_unknown] at h
          simp only [List.cons.injEq] at h
          simp only [List.length_cons, Nat.add_right_cancel_iff] at hx hx'
          rw [h.1, ih hx hx' h.2]
    · rw [if_neg ha] at hx hx'
      rw [fill_known ha, fill_known ha] at h
      exact ih (by omega) (by omega) (by simpa using h)

/-- What a fork does to the search. -/
structure ForkSpec (W : Vec) (Q : Question) (j : Nat) (qs : List Int) : Prop where
  inc : qs.Pairwise (· < ·)
  inv : ∀ q ∈ qs, Inv W (asg Q [j] (fun _ => q)) ∧
    ncols (asg Q [j] (fun _ => q)).A + 1 = ncols Q.A
  sol : ∀ x, Sol Q x → x.getD j 0 ∈ qs
  solY : ∀ y, SolY W Q y → ∃ q ∈ qs, SolY W (asg Q [j] (fun _ => q)) y
  subY : ∀ q ∈ qs, ∀ y, SubY (asg Q [j] (fun _ => q)) y →
    ∃ x, SubS Q x ∧ y = fill Q.ans.v x ∧ x.getD j 0 = q

theorem fork_spec {W : Vec} {Q : Question} (h : Inv W Q) {j : Nat} (hj : j < ncols Q.A) :
    ForkSpec W Q j (forkVals Q j) := by
  have hlt1 : ∀ c ∈ [j], c < ncols Q.A := by simpa using hj
  have hmem : ∀ q ∈ forkVals Q j, 0 ≤ q ∧ q ≤ Q.bounds.getD j 0 ∧
      ∀ x ∈ (asg Q [j] (fun _ => q)).b, 0 ≤ x := by
    intro q hq
    unfold forkVals at hq
    rw [List.mem_filter, mem_pyRange] at hq
    refine ⟨by omega, by omega, ?_⟩
    have h2 := hq.2
    unfold childOK at h2
    rw [List.all_eq_true] at h2
    intro x hx; simpa using h2 x hx
  have hsol : ∀ x, Sol Q x → x.getD j 0 ∈ forkVals Q j := by
    intro x hx
    have hjx : j < x.length := by rw [hx.len]; exact hj
    have h1 := Bounds.getD_of_forall₂ 0 hx.bd hjx
    have h2 := sum_npDelete (ids := [j]) (l := x) (by simp) (by simpa using hjx)
    have h3 := sum_le_of_forall₂ (forall₂_npDelete hx.bd [j])
    have hs := hx.sum
    simp only [List.map_cons, List.map_nil, List.sum_cons, List.sum_nil, add_zero] at h2
    unfold forkVals
    rw [List.mem_filter, mem_pyRange]
    refine ⟨⟨by omega, by omega⟩, ?_⟩
    have hsol' := asg_sol (w := fun _ => x.getD j 0) h (by simp) hlt1 hx (by simp)
    unfold childOK
    rw [List.all_eq_true]
    intro z hz
    obtain ⟨i, hi, rfl⟩ := List.getElem_of_mem hz
    have hiA : i < (asg Q [j] (fun _ => x.getD j 0)).A.length := by
      simp only [asg, List.length_zipWith, List.length_map] at hi ⊢; omega
    have := hsol'.eq ((asg Q [j] (fun _ => x.getD j 0)).A[i], _) (by
      rw [List.mem_iff_getElem]; exact ⟨i, by simp only [List.length_zip]; omega, by simp; rfl⟩)
    have hnn : 0 ≤ dot (asg Q [j] (fun _ => x.getD j 0)).A[i] (npDelete [j] x) := by
      apply dot_nonneg
      · intro a ha
        simp only [asg, List.getElem_map] at ha
        exact (h.sys.bin _ (List.getElem_mem _)).nonneg a (mem_of_mem_npDelete ha)
      · intro a ha; exact hx.nonneg a (mem_of_mem_npDelete ha)
    rw [this] at hnn
    simpa using hnn
  refine ⟨?_, ?_, hsol, ?_, ?_⟩
  · exact List.Pairwise.filter _ (pyRange_pairwise _ _)
  · intro q hq
    obtain ⟨h1, h2, h3⟩ := hmem q hq
    refine ⟨asg_inv h (by simp) hlt1 (by intro c _; exact h1) h3, ?_⟩
    have := asg_ncols_add (w := fun _ => q) h (ids := [j]) (by simp) hlt1
    simpa using this
  · rintro y ⟨x, hx, hy, hyW⟩
    have hq := hsol x hx
    refine ⟨_, hq, ?_⟩
    exact asg_solY h (by simp) hlt1 (by intro c _; exact (hmem _ hq).1) hx (by simp) hy hyW
  · intro q hq y hy
    obtain ⟨h1, h2, -⟩ := hmem q hq
    obtain ⟨x, g1, g2, g3⟩ := asg_subY h (by simp) hlt1 (by intro c _; exact h1)
      (by intro c hc; rw [List.mem_singleton] at hc; subst hc; exact h2) hy
    exact ⟨x, g1, g2, g3 j (by simp)⟩

end TDS
