import Verif.Proof.Merge

/-! How large the stack of `solve_question` gets and how often its loop runs.  The measure is the
sum of the bounds of a question. -/

namespace TDS

theorem sum_deleteFrom_le {l : Vec} (h : ∀ x ∈ l, 0 ≤ x) (ids : List Nat) (i : Nat) :
    (deleteFrom ids i l).sum ≤ l.sum := by
  induction l generalizing i with
  | nil => simp [deleteFrom]
  | cons a l ih =>
    have h1 := ih (fun x hx => h x (by simp [hx])) (i + 1)
    have h2 := h a (by simp)
    rw [deleteFrom]
    split
    · rw [List.sum_cons]; omega
    · rw [List.sum_cons, List.sum_cons]; omega

theorem sum_npDelete_le {l : Vec} (h : ∀ x ∈ l, 0 ≤ x) (ids : List Nat) :
    (npDelete ids l).sum ≤ l.sum := sum_deleteFrom_le h ids 0

theorem sum_le_of_le {x y : Vec} (h : List.Forall₂ (· ≤ ·) x y) : x.sum ≤ y.sum := by
  induction h with
  | nil => simp
  | cons h1 _ ih => rw [List.sum_cons, List.sum_cons]; omega

theorem not_mem_deleteFrom {ids : List Nat} : ∀ {l : Vec} {i : Nat} {a : Int},
    (∀ j < l.length, l.getD j 0 = a → i + j ∈ ids) → a ∉ deleteFrom ids i l := by
  intro l
  induction l with
  | nil => intro i a _; simp [deleteFrom]
  | cons x l ih =>
    intro i a h
    have h' : a ∉ deleteFrom ids (i + 1) l := by
      refine ih ?_
      intro j hj he
      have := h (j + 1) (by simp; omega) (by simpa using he)
      rwa [Nat.add_assoc, Nat.add_comm 1 j]
    rw [deleteFrom]
    split
    · exact h'
    · next hn =>
      rw [List.mem_cons, not_or]
      refine ⟨?_, h'⟩
      rintro rfl
      exact hn (by simpa using h 0 (by simp) (by simp))

theorem only1With_bounds {rcs : List (Nat × Nat)} {Q Q' : Question}
    (h : only1With rcs Q = .ok Q') : Q'.bounds = npDelete (rcs.map Prod.snd) Q.bounds := by
  unfold only1With at h
  obtain ⟨_, -, h⟩ := bind_eq_ok.1 h
  split at h
  · next he =>
    cases h
    rw [List.isEmpty_iff.1 he]
    simp
  · dsimp only at h
    split at h
    · cases h
    split at h
    · cases h
    split at h
    · cases h
    obtain ⟨_, -, h⟩ := bind_eq_ok.1 h
    obtain ⟨_, -, h⟩ := bind_eq_ok.1 h
    obtain ⟨_, -, h⟩ := bind_eq_ok.1 h
    obtain ⟨_, -, h⟩ := bind_eq_ok.1 h
    cases h
    rfl

/-- One pass does not raise the sum of the bounds, and leaves no bound zero. -/
theorem reducePass_bounds {W : Vec} {Q Q' : Question} (h : Inv W Q) (hp : reducePass Q = .ok Q') :
    Q'.bounds.sum ≤ Q.bounds.sum ∧ ∀ x ∈ Q'.bounds, x ≠ 0 := by
  unfold reducePass at hp
  obtain ⟨Q1, h1, hp1⟩ := bind_eq_ok.1 hp
  obtain ⟨Q2, h2, hp2⟩ := bind_eq_ok.1 hp1
  obtain ⟨Q3, h3, hp3⟩ := bind_eq_ok.1 hp2
  rw [reduceCol_eq h h1] at h2
  have i2 : Inv W Q2 := by have := eliminate_ok h; rw [h2] at this; exact this.ok.1
  have e2 : Q2.bounds = Q.bounds := by
    obtain ⟨A', b', g1, -, -, -⟩ := eliminateBody_ok h
    unfold eliminate at h2
    rw [g1, ok_bind] at h2
    rw [checkAfter_eq h2]
  have i3 : Inv W Q3 := by have := zeroInB_ok i2; rw [h3] at this; exact this.ok.1
  have e3 : Q3.bounds = npDelete (Bounds.zeroBoundLoc (Bounds.lowerUpperBound Q2.A Q2.b Q2.bounds))
      (Bounds.lowerUpperBound Q2.A Q2.b Q2.bounds) := by
    unfold zeroInB at h3
    rw [zeroInBBody_eq i2, ok_bind] at h3
    rw [checkAfter_eq h3]
    rfl
  have hi := (setBounds_ok i2).ok.1
  have hnn : ∀ x ∈ Bounds.lowerUpperBound Q2.A Q2.b Q2.bounds, 0 ≤ x :=
    fun x hx => (hi.brange x hx).1
  have s3 : Q3.bounds.sum ≤ Q2.bounds.sum := by
    rw [e3]
    refine (sum_npDelete_le hnn _).trans ?_
    rw [Bounds.lowerUpperBound_eq]
    refine sum_le_of_le (Bounds.lub_le ?_)
    intro p hp; rw [i2.blen]; exact i2.sys.rect _ (List.of_mem_zip hp).1
  have z3 : ∀ x ∈ Q3.bounds, x ≠ 0 := by
    rw [e3]
    rintro x hx rfl
    refine not_mem_deleteFrom ?_ hx
    intro j hj he
    rw [Nat.zero_add, mem_zeroBoundLoc]
    exact ⟨hj, he⟩
  unfold only1 at hp3
  obtain ⟨Q4, h4, h5⟩ := bind_eq_ok.1 hp3
  have e5 := checkAfter_eq h5
  subst e5
  have e4 := only1With_bounds h4
  constructor
  · rw [e4, ← e2]
    exact (sum_npDelete_le (fun x hx => (i3.brange x hx).1) _).trans s3
  · intro x hx
    rw [e4] at hx
    exact z3 x (mem_of_mem_npDelete hx)

theorem reduceLoop_bounds {W : Vec} (n : Nat) : ∀ {Q Q' : Question}, Inv W Q →
    reduceLoop n Q = .ok Q' → Q'.bounds.sum ≤ Q.bounds.sum := by
  induction n with
  | zero => intro Q Q' _ h; cases h
  | succ n ih =>
    intro Q Q' h hl
    rw [reduceLoop] at hl
    obtain ⟨Q1, h1, hl⟩ := bind_eq_ok.1 hl
    have hb := (reducePass_bounds h h1).1
    split at hl
    · cases hl; exact hb
    · have hi : Inv W Q1 := by have := reducePass_ok h; rw [h1] at this; exact this.ok.1
      exact (ih hi hl).trans hb

/-! ### the initial question -/

/-- Number of positions in a grouping. -/
def total (d : List (Int × List Nat)) : Nat := (d.map (fun g => g.2.length)).sum

theorem total_groupAdd (d : List (Int × List Nat)) (c : Int) (j : Nat) :
    total (groupAdd d c j) = total d + 1 := by
  induction d with
  | nil => rfl
  | cons g d ih =>
    obtain ⟨c', ls⟩ := g
    rw [groupAdd]
    split
    · simp only [total, List.map_cons, List.sum_cons, List.length_append, List.length_singleton]
      omega
    · simp only [total, List.map_cons, List.sum_cons] at ih ⊢
      omega

theorem total_groups (enc : List Int) : total (groups enc) = enc.length := by
  have : ∀ (l : List (Int × Nat)) (d : List (Int × List Nat)),
      total (l.foldl (fun d p => groupAdd d p.1 p.2) d) = total d + l.length := by
    intro l
    induction l with
    | nil => intro d; rfl
    | cons p l ih =>
      intro d
      rw [List.foldl_cons, ih, total_groupAdd, List.length_cons]
      omega
  unfold groups
  rw [this]
  simp [total]

theorem merged_bounds_sum (Q : Question) : (merged Q).bounds.sum = ncols Q.A := by
  have h : ∀ d : List (Int × List Nat), (d.map (fun g => (g.2.length : Int))).sum = total d := by
    intro d
    induction d with
    | nil => rfl
    | cons g d ih =>
      simp only [total, List.map_cons, List.sum_cons] at ih ⊢
      rw [ih]; push_cast; rfl
  unfold merged
  simp only
  rw [h, grps, total_groups, codes_length]

theorem reduceLoop_pre_bounds {Q Q' : Question} (h : Pre Q) (n : Nat)
    (hl : reduceLoop n Q = .ok Q') : Q'.bounds.sum ≤ ncols Q.A := by
  cases n with
  | zero => cases hl
  | succ n =>
    rw [reduceLoop, reducePass_pre h] at hl
    obtain ⟨Q1, h1, hl⟩ := bind_eq_ok.1 hl
    have hi := merged_inv h
    have hb := (reducePass_bounds hi h1).1
    rw [merged_bounds_sum] at hb
    split at hl
    · cases hl; exact hb
    · have hi : Inv (widths Q) Q1 := by
        have := reducePass_ok hi; rw [h1] at this; exact this.ok.1
      exact (reduceLoop_bounds _ hi hl).trans hb

/-! ### one round of the outer loop -/

/-- Questions that occur on the stack: the initial one and forks. -/
def Node (W : Vec) (Q : Question) : Prop := Inv W Q ∨ Pre Q ∧ W = widths Q

/-- Sum of the bounds. -/
def wt (Q : Question) : Nat := Q.bounds.sum.toNat

theorem pre_wt {Q : Question} (h : Pre Q) : wt Q = ncols Q.A := by
  unfold wt
  rw [h.bounds, sum_replicate_int]
  simp

theorem forkVals_length (Q : Question) (j : Nat) (h : 0 ≤ Q.bounds.getD j 0) :
    (forkVals Q j).length ≤ (Q.bounds.getD j 0).toNat + 1 := by
  unfold forkVals
  refine (List.length_filter_le _ _).trans ?_
  unfold Fork.pyRange
  simp only [List.length_map, List.length_range]
  omega

theorem node_visit {W : Vec} {Q : Question} (h : Node W Q) :
    ∃ outs qs, visit Q = .ok (outs, qs) ∧ (qs = [] ∨ ∃ p, 1 ≤ p ∧ qs.length ≤ p + 1 ∧
      ∀ q ∈ qs, Inv W q ∧ wt q + p ≤ wt Q) := by
  have key : ∃ Q1, LoopOK W Q1 (reduceLoop (reduceFuel Q) Q) ∧
      ∀ Q', reduceLoop (reduceFuel Q) Q = .ok Q' → Q'.bounds.sum.toNat ≤ wt Q := by
    rcases h with h | ⟨h, rfl⟩
    · refine ⟨Q, reduceLoop_ok _ h (by unfold reduceFuel; omega), fun Q' hl => ?_⟩
      have := reduceLoop_bounds _ h hl
      unfold wt; omega
    · refine ⟨merged Q, reduceLoop_pre h _ (by unfold reduceFuel; omega), fun Q' hl => ?_⟩
      have := reduceLoop_pre_bounds h _ hl
      rw [pre_wt h]; omega
  obtain ⟨Q1, ⟨hs, hf⟩, hb⟩ := key
  unfold visit
  match hr : reduceLoop (reduceFuel Q) Q, hs, hf, hb with
  | .error .noSolution, _, _, _ => exact ⟨_, _, rfl, Or.inl rfl⟩
  | .ok Q', hs, hf, hb =>
    obtain ⟨hfix, hc⟩ := hf Q' rfl
    have hi := hs.ok.1
    simp only [ok_bind]
    by_cases hu : Q'.ans.unknown = true
    · have h0 : 0 < ncols Q'.A := by rw [← hi.unk]; exact (unknown_iff _).1 hu
      obtain ⟨j, hj, he⟩ := forkEnum_eq hi hc h0
      rw [if_pos hu, he]
      refine ⟨_, _, rfl, Or.inr ⟨(Q'.bounds.getD j 0).toNat, ?_, ?_, ?_⟩⟩
      · have hm : Q'.bounds.getD j 0 ∈ Q'.bounds := by
          rw [List.getD_eq_getElem _ _ (by rw [hi.blen]; exact hj)]; exact List.getElem_mem _
        have h1 := (hi.brange _ hm).1
        have h2 := (reducePass_bounds hi hfix).2 _ hm
        omega
      · rw [List.length_map]
        refine forkVals_length _ _ ?_
        have hm : Q'.bounds.getD j 0 ∈ Q'.bounds := by
          rw [List.getD_eq_getElem _ _ (by rw [hi.blen]; exact hj)]; exact List.getElem_mem _
        exact (hi.brange _ hm).1
      · intro q hq
        obtain ⟨a, ha, rfl⟩ := List.mem_map.1 hq
        have hspec := (fork_spec hi hj).inv a ha
        refine ⟨hspec.1, ?_⟩
        have hm : Q'.bounds.getD j 0 ∈ Q'.bounds := by
          rw [List.getD_eq_getElem _ _ (by rw [hi.blen]; exact hj)]; exact List.getElem_mem _
        have h1 := (hi.brange _ hm).1
        have h2 := sum_npDelete (ids := [j]) (l := Q'.bounds) (by simp)
          (by simpa [hi.blen] using hj)
        simp only [List.map_cons, List.map_nil, List.sum_cons, List.sum_nil] at h2
        have h3 := hb Q' rfl
        have h4 : 0 ≤ (npDelete [j] Q'.bounds).sum := by
          have := sum_nonneg' (l := npDelete [j] Q'.bounds) (f := id) ?_
          · simpa using this
          intro x hx; exact (hi.brange x (mem_of_mem_npDelete hx)).1
        have e : wt (asg Q' [j] (fun _ => a)) = (npDelete [j] Q'.bounds).sum.toNat := rfl
        rw [e]
        omega
    · have h0 : ncols Q'.A = 0 := by
        rw [← hi.unk]
        by_contra hne
        exact hu ((unknown_iff _).2 (by omega))
      have hw := within_of_final hi hc h0
      rw [if_neg hu, binarize_eq hw hi.lay]
      exact ⟨_, _, rfl, Or.inl rfl⟩

/-! ### the stack -/

/-- Every question on the stack has room for what lies below it. -/
def StOK (W : Vec) (B : Nat) : List Question → Prop
  | [] => True
  | Q :: st => st.length + wt Q ≤ B ∧ Node W Q ∧ StOK W B st

theorem StOK.push {W : Vec} {B wP p : Nat} {st : List Question} (hst : StOK W B st)
    (hB : st.length + wP ≤ B) : ∀ l : List Question, l.length ≤ p + 1 →
    (∀ q ∈ l, Inv W q ∧ wt q + p ≤ wP) → StOK W B (l ++ st) := by
  intro l
  induction l with
  | nil => intro _ _; exact hst
  | cons q l ih =>
    intro hl hq
    have h1 := hq q (by simp)
    simp only [List.length_cons] at hl
    refine ⟨?_, Or.inl h1.1, ih (by omega) (fun q' hq' => hq q' (by simp [hq']))⟩
    change (l ++ st).length + wt q ≤ B
    rw [List.length_append]
    omega

theorem StOK.step {W : Vec} {B : Nat} {P : Question} {st : List Question} {outs : List Vec}
    {qs : List Question} (h : StOK W B (P :: st)) (hv : visit P = .ok (outs, qs)) :
    StOK W B (qs.reverse ++ st) := by
  obtain ⟨h1, h2, h3⟩ := h
  obtain ⟨outs', qs', hv', hc⟩ := node_visit h2
  rw [hv] at hv'
  cases hv'
  rcases hc with rfl | ⟨p, -, hl, hq⟩
  · exact h3
  · exact h3.push h1 _ (by simpa using hl) (fun q hq' => hq q (List.mem_reverse.1 hq'))

theorem StOK.length {W : Vec} {B : Nat} {st : List Question} (h : StOK W B st) :
    st.length ≤ B + 1 := by
  cases st with
  | nil => simp
  | cons Q st => have := h.1; simp only [List.length_cons]; omega

/-! ### rounds -/

/-- Rounds that suffice for a stack. -/
def cost (st : List Question) : Nat := (st.map (fun Q => 2 ^ (wt Q + 1) - 1)).sum

theorem cost_append (a b : List Question) : cost (a ++ b) = cost a + cost b := by
  simp [cost]

theorem cost_reverse (a : List Question) : cost a.reverse = cost a := by
  simp [cost, List.sum_reverse]

theorem succ_le_two_pow (p : Nat) : p + 1 ≤ 2 ^ p := by
  induction p with
  | zero => simp
  | succ p ih => rw [Nat.pow_succ]; omega

theorem cost_children {wP p : Nat} (hp : 1 ≤ p) {l : List Question} (hl : l.length ≤ p + 1)
    (hq : ∀ q ∈ l, wt q + p ≤ wP) : cost l + 1 ≤ 2 ^ (wP + 1) - 1 := by
  have hT : ∀ l : List Question, (∀ q ∈ l, wt q + p ≤ wP) →
      cost l ≤ l.length * (2 ^ (wP - p + 1) - 1) := by
    intro l
    induction l with
    | nil => intro _; simp [cost]
    | cons q l ih =>
      intro h
      have h1 := ih (fun q' hq' => h q' (by simp [hq']))
      have h2 := h q (by simp)
      have h3 : 2 ^ (wt q + 1) ≤ 2 ^ (wP - p + 1) := Nat.pow_le_pow_right (by omega) (by omega)
      simp only [cost, List.map_cons, List.sum_cons, List.length_cons] at h1 ⊢
      rw [Nat.add_mul, Nat.one_mul]
      omega
  cases l with
  | nil =>
    have : 2 ^ 1 ≤ 2 ^ (wP + 1) := Nat.pow_le_pow_right (by omega) (by omega)
    simp only [cost, List.map_nil, List.sum_nil]
    omega
  | cons q t =>
    have hpw : p ≤ wP := by have := hq q (by simp); omega
    have h1 := hT _ hq
    have h2 : (q :: t).length * (2 ^ (wP - p + 1) - 1) ≤ (p + 1) * (2 ^ (wP - p + 1) - 1) :=
      Nat.mul_le_mul_right _ hl
    have h3 : (p + 1) * 2 ^ (wP - p + 1) ≤ 2 ^ p * 2 ^ (wP - p + 1) :=
      Nat.mul_le_mul_right _ (succ_le_two_pow p)
    have h4 : 2 ^ p * 2 ^ (wP - p + 1) = 2 ^ (wP + 1) := by
      rw [← Nat.pow_add]; congr 1; omega
    have h6 : (p + 1) * (2 ^ (wP - p + 1) - 1) = (p + 1) * 2 ^ (wP - p + 1) - (p + 1) := by
      rw [Nat.mul_sub, Nat.mul_one]
    have h5 : p + 1 ≤ (p + 1) * 2 ^ (wP - p + 1) := Nat.le_mul_of_pos_right _ (by positivity)
    omega

theorem solveLoop_cost {W : Vec} (n : Nat) : ∀ st : List Question, (∀ Q ∈ st, Node W Q) →
    cost st ≤ n → ∃ rows, solveLoop n st = .ok rows := by
  induction n with
  | zero =>
    intro st _ hc
    cases st with
    | nil => exact ⟨[], rfl⟩
    | cons Q st =>
      have : 2 ^ 1 ≤ 2 ^ (wt Q + 1) := Nat.pow_le_pow_right (by omega) (by omega)
      simp only [cost, List.map_cons, List.sum_cons] at hc
      omega
  | succ n ih =>
    intro st hN hc
    cases st with
    | nil => exact ⟨[], rfl⟩
    | cons Q st =>
      obtain ⟨outs, qs, hv, hcase⟩ := node_visit (hN Q (by simp))
      have hq : (∀ q ∈ qs, Inv W q) ∧ cost qs + 1 ≤ 2 ^ (wt Q + 1) - 1 := by
        rcases hcase with rfl | ⟨p, hp, hl, hq⟩
        · refine ⟨by simp, ?_⟩
          have : 2 ^ 1 ≤ 2 ^ (wt Q + 1) := Nat.pow_le_pow_right (by omega) (by omega)
          simp only [cost, List.map_nil, List.sum_nil]
          omega
        · exact ⟨fun q hq' => (hq q hq').1, cost_children hp hl (fun q hq' => (hq q hq').2)⟩
      obtain ⟨rows, hr⟩ := ih (qs.reverse ++ st) (by
        intro q hq'
        rcases List.mem_append.1 hq' with h | h
        · exact Or.inl (hq.1 q (List.mem_reverse.1 h))
        · exact hN q (by simp [h])) (by
        rw [cost_append, cost_reverse]
        have e : cost (Q :: st) = (2 ^ (wt Q + 1) - 1) + cost st := by simp [cost]
        omega)
      refine ⟨outs ++ rows, ?_⟩
      rw [solveLoop, hv, ok_bind]
      simp only
      rw [hr, ok_bind]

theorem solveLoop_mono {n : Nat} : ∀ {st : List Question} {r : List Vec} (m : Nat), n ≤ m →
    solveLoop n st = .ok r → solveLoop m st = .ok r := by
  induction n with
  | zero =>
    intro st r m _ h
    cases st with
    | nil => cases m <;> exact h
    | cons Q st => cases h
  | succ n ih =>
    intro st r m hm h
    cases st with
    | nil => cases m <;> exact h
    | cons Q st =>
      obtain ⟨m, rfl⟩ : ∃ k, m = k + 1 := ⟨m - 1, by omega⟩
      rw [solveLoop] at h ⊢
      obtain ⟨⟨outs, qs⟩, hv, h⟩ := bind_eq_ok.1 h
      obtain ⟨rest, hr, h⟩ := bind_eq_ok.1 h
      rw [hv, ok_bind]
      simp only
      rw [ih m (by omega) hr, ok_bind]
      exact h

end TDS
