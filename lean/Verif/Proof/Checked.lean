import Verif.Model.Checked
import Verif.Proof.Contig

/-! The corrected program against the original, up to one question. -/

namespace TDS

namespace Gauss

/-- Either nothing was lost and the answer is the one of the original, or the system has no
solution. -/
theorem gaussStepC_cmp (C : Nat) {hd : List Entry} (hne : hd ≠ []) (hpos : ∀ e ∈ hd, 0 < e.k) :
    (gaussStepC hd = gaussStep hd ∧ ∀ hd', gaussStep hd = .ok (true, hd') →
      ∀ x, Sat C hd' x → Sat C hd x) ∨
    (gaussStepC hd = .error .noSolution ∧ ∀ x, ¬ Sat C hd x) := by
  cases hs : ssort hd with
  | nil =>
    have := (ssort_perm hd).length_eq
    rw [hs] at this
    exact absurd (List.eq_nil_of_length_eq_zero this.symm) hne
  | cons m rest =>
    have hmem : ∀ e, e ∈ hd ↔ e = m ∨ e ∈ rest := by
      intro e; rw [← mem_ssort, hs, List.mem_cons]
    have hm : 0 < m.k := hpos m ((hmem m).2 (Or.inl rfl))
    have hC : gaussStepC hd =
        if ((rest.filter (isReducible m)).map (·.sub m)).isEmpty then
          .ok (false, hmerge [m] (rest.filter (fun e => !isReducible m e)))
        else (removeZeroKeysC ((rest.filter (isReducible m)).map (·.sub m)) >>= fun r =>
          .ok (true, hmerge (hmerge [m] r) (rest.filter (fun e => !isReducible m e)))) := by
      unfold gaussStepC
      simp only [hs, hm, decide_true, pyAssert_true, ok_bind]
      rfl
    rw [hC, gaussStep_of_pos hs hm]
    by_cases hemp : ((rest.filter (isReducible m)).map (·.sub m)).isEmpty = true
    · left
      rw [if_pos hemp, if_pos hemp]
      refine ⟨rfl, ?_⟩
      intro hd' h'
      simp at h'
    rw [if_neg hemp, if_neg hemp]
    unfold removeZeroKeysC
    by_cases hany : (((rest.filter (isReducible m)).map (·.sub m)).any
        (fun e => !decide (e.k > 0) && (e.v != 0))) = true
    · right
      rw [if_pos hany]
      refine ⟨rfl, ?_⟩
      intro x hx
      obtain ⟨e', he', hb⟩ := List.any_eq_true.1 hany
      obtain ⟨e, he, rfl⟩ := List.mem_map.1 he'
      obtain ⟨her, hred⟩ := List.mem_filter.1 he
      simp [Entry.sub] at hb
      have h1 := hx m ((hmem m).2 (Or.inl rfl))
      have h2 := hx e ((hmem e).2 (Or.inr her))
      rw [row_eq_of_le hm hred (by omega)] at h2
      omega
    · left
      rw [if_neg hany]
      refine ⟨rfl, ?_⟩
      intro hd' h' x hx
      have h' : hmerge (hmerge [m] (removeZeroKeys ((rest.filter (isReducible m)).map (·.sub m))))
          (rest.filter (fun e => !isReducible m e)) = hd' := by simpa using h'
      subst h'
      have hxm : dot (m.row C) x = m.v := hx m (by simp [mem_hmerge])
      intro e he
      rcases (hmem e).1 he with rfl | he
      · exact hxm
      cases hred : isReducible m e with
      | false =>
        exact hx e (by simp [mem_hmerge, he, hred])
      | true =>
        by_cases hk : e.k ≤ m.k
        · rw [row_eq_of_le hm hred hk, hxm]
          by_contra hne'
          apply hany
          rw [List.any_eq_true]
          refine ⟨e.sub m, List.mem_map_of_mem (List.mem_filter.2 ⟨he, hred⟩), ?_⟩
          simp [Entry.sub]
          omega
        · have h1 := hx (e.sub m) (by
            simp only [mem_hmerge, mem_removeZeroKeys, List.mem_map, List.mem_filter]
            left; right
            exact ⟨⟨e, ⟨he, hred⟩, rfl⟩, by simp only [Entry.sub]; omega⟩)
          have h2 := dot_sub hm hred C x
          simp only [Entry.sub] at h1 h2
          omega

theorem elimLoopC_cmp (C : Nat) (n : Nat) : ∀ (hs hd : List Entry), (∀ e ∈ hs ++ hd, 0 < e.k) →
    (elimLoopC n hs hd = elimLoop n hs hd ∧ ∀ out, elimLoop n hs hd = .ok out →
      ∀ x, Sat C out x → Sat C (hs ++ hd) x) ∨
    (elimLoopC n hs hd = .error .noSolution ∧ ∀ x, ¬ Sat C (hs ++ hd) x) := by
  induction n with
  | zero =>
    intro hs hd _
    left
    cases hd with
    | nil =>
      refine ⟨by simp [elimLoopC, elimLoop], ?_⟩
      intro out ho x hx
      have : hs = out := by simpa [elimLoop] using ho
      rw [List.append_nil, this]; exact hx
    | cons a t =>
      refine ⟨by simp [elimLoopC, elimLoop], ?_⟩
      intro out ho
      simp [elimLoop] at ho
  | succ n ih =>
    intro hs hd hpos
    cases hd with
    | nil =>
      left
      refine ⟨by simp [elimLoopC, elimLoop], ?_⟩
      intro out ho x hx
      have : hs = out := by simpa [elimLoop] using ho
      rw [List.append_nil, this]; exact hx
    | cons h t =>
      have hposd : ∀ e ∈ h :: t, 0 < e.k := fun e he => hpos e (by simp [List.mem_append, he])
      have happ : ∀ x, Sat C (hs ++ h :: t) x ↔ Sat C hs x ∧ Sat C (h :: t) x := by
        intro x; unfold Sat; simp only [List.forall_mem_append]
      obtain ⟨⟨fl, hd'⟩, hg⟩ := gaussStep_total (by simp) hposd
      rw [elimLoopC, elimLoop]
      rcases gaussStepC_cmp C (List.cons_ne_nil h t) hposd with ⟨h1, h2⟩ | ⟨h1, h2⟩
      swap
      · right
        rw [h1]
        exact ⟨rfl, fun x hx => h2 x ((happ x).1 hx).2⟩
      rw [h1, hg]
      simp only [ok_bind]
      cases fl with
      | true =>
        simp only [if_true]
        obtain ⟨-, -, h3⟩ := gaussStep_measure hposd hg
        have hst := gaussStep_step hposd hg
        have hpm := hmerge_perm hs hd'
        have hmm : ∀ x, Sat C (hmerge hs hd') x ↔ Sat C hs x ∧ Sat C hd' x := by
          intro x; unfold Sat
          constructor
          · intro hx
            exact ⟨fun e he => hx e (hpm.mem_iff.2 (List.mem_append_left _ he)),
              fun e he => hx e (hpm.mem_iff.2 (List.mem_append_right _ he))⟩
          · rintro ⟨g1, g2⟩ e he
            rcases List.mem_append.1 (hpm.mem_iff.1 he) with he | he
            · exact g1 e he
            · exact g2 e he
        rcases ih [] (hmerge hs hd') (by
            intro e he
            rw [List.nil_append, hpm.mem_iff, List.mem_append] at he
            rcases he with he | he
            · exact hpos e (by simp [he])
            · exact h3 e he) with ⟨g1, g2⟩ | ⟨g1, g2⟩
        · left
          refine ⟨g1, ?_⟩
          intro out ho x hx
          have := (hmm x).1 (g2 out ho x hx)
          exact (happ x).2 ⟨this.1, h2 hd' hg x this.2⟩
        · right
          refine ⟨g1, ?_⟩
          intro x hx
          obtain ⟨a1, a2⟩ := (happ x).1 hx
          exact g2 x ((hmm x).2 ⟨a1, Reds.sat (Relation.ReflTransGen.single hst) a2⟩)
      | false =>
        obtain ⟨m, rest, hs1, rfl, hirr⟩ := gaussStep_false hg
        have hsorted := ssort_sorted (h :: t)
        rw [hs1] at hsorted
        simp only [Bool.false_eq_true, if_false, ssort_of_sorted hsorted]
        have hperm : List.Perm (m :: rest) (h :: t) := by rw [← hs1]; exact ssort_perm _
        have hperm2 : List.Perm (hs ++ [m] ++ rest) (hs ++ h :: t) := by
          rw [List.append_assoc, List.singleton_append]; exact hperm.append_left hs
        have hiff : ∀ x, Sat C (hs ++ [m] ++ rest) x ↔ Sat C (hs ++ h :: t) x := by
          intro x; unfold Sat
          exact ⟨fun g e he => g e (hperm2.mem_iff.2 he), fun g e he => g e (hperm2.mem_iff.1 he)⟩
        rcases ih (hs ++ [m]) rest (fun e he => hpos e (hperm2.mem_iff.1 he))
          with ⟨g1, g2⟩ | ⟨g1, g2⟩
        · exact Or.inl ⟨g1, fun out ho x hx => (hiff x).1 (g2 out ho x hx)⟩
        · exact Or.inr ⟨g1, fun x hx => g2 x ((hiff x).2 hx)⟩

theorem elimListC_cmp (C : Nat) {hd : List Entry} (hnn : ∀ e ∈ hd, 0 ≤ e.k) :
    (elimListC hd = elimList hd ∧ ∀ out, elimList hd = .ok out →
      ∀ x, Sat C out x → Sat C hd x) ∨
    (elimListC hd = .error .noSolution ∧ ∀ x, ¬ Sat C hd x) := by
  have hzero : ∀ e ∈ hd, ¬ 0 < e.k → ∀ x, dot (e.row C) x = 0 := by
    intro e he hk x
    have : e.k = 0 := by have := hnn e he; omega
    unfold Entry.row
    rw [this]
    exact rowOf_zero_dot C x
  unfold elimListC removeZeroKeysC
  by_cases hany : (hd.any (fun e => !decide (e.k > 0) && (e.v != 0))) = true
  · right
    rw [if_pos hany]
    refine ⟨rfl, ?_⟩
    intro x hx
    obtain ⟨e, he, hb⟩ := List.any_eq_true.1 hany
    simp only [gt_iff_lt, Bool.and_eq_true, Bool.not_eq_true', decide_eq_false_iff_not,
      bne_iff_ne, ne_eq] at hb
    have h1 := hx e he
    rw [hzero e he hb.1 x] at h1
    exact hb.2 h1.symm
  rw [if_neg hany]
  simp only [ok_bind]
  have hback : ∀ x, Sat C (removeZeroKeys hd) x → Sat C hd x := by
    intro x hx e he
    by_cases hk : 0 < e.k
    · exact hx e (mem_removeZeroKeys.2 ⟨he, hk⟩)
    · rw [hzero e he hk x]
      by_contra hne
      apply hany
      rw [List.any_eq_true]
      refine ⟨e, he, ?_⟩
      simp only [gt_iff_lt, Bool.and_eq_true, Bool.not_eq_true', decide_eq_false_iff_not,
        bne_iff_ne, ne_eq]
      omega
  have hfwd : ∀ x, Sat C hd x → Sat C (removeZeroKeys hd) x :=
    fun x hx e he => hx e (mem_removeZeroKeys.1 he).1
  unfold elimList
  simp only []
  by_cases hl : (removeZeroKeys hd).length ≤ 1
  · left
    rw [if_pos hl, if_pos hl]
    refine ⟨rfl, ?_⟩
    intro out ho x hx
    have : removeZeroKeys hd = out := by simpa using ho
    exact hback x (by rw [this]; exact hx)
  · rw [if_neg hl, if_neg hl]
    have hsort : ∀ x, Sat C ([] ++ ssort (removeZeroKeys hd)) x ↔ Sat C (removeZeroKeys hd) x := by
      intro x
      unfold Sat
      simp only [List.nil_append, mem_ssort]
    rcases elimLoopC_cmp C (elimFuel (removeZeroKeys hd)) [] (ssort (removeZeroKeys hd)) (by
      intro e he
      exact removeZeroKeys_pos e (mem_ssort.1 (by simpa using he))) with ⟨g1, g2⟩ | ⟨g1, g2⟩
    · exact Or.inl ⟨g1, fun out ho x hx => hback x ((hsort x).1 (g2 out ho x hx))⟩
    · exact Or.inr ⟨g1, fun x hx => g2 x ((hsort x).2 (hfwd x hx))⟩

theorem elimC_cmp {C : Nat} {A : Mat} {b : Vec} (h : Sys C A b) (hC : 0 < C) (hC63 : C ≤ 63)
    (hcov : ∃ r ∈ A, r.getD 0 0 ≠ 0) :
    (elimC A b = elim A b ∧ ∀ A' b', elim A b = .ok (A', b') →
      ∀ x, (∀ p ∈ A'.zip b', dot p.1 x = p.2) → ∀ p ∈ A.zip b, dot p.1 x = p.2) ∨
    (elimC A b = .error .noSolution ∧ ∀ x, ¬ ∀ p ∈ A.zip b, dot p.1 x = p.2) := by
  have henc := encode_eqns (b := b) hC hC63 h.rect h.bin
  have hencode := encode_ok hC h.ne h.len h.rect
  rw [entryOf_zipIdx] at hencode
  set hd := (A.zip b).zipIdx.map entryOf with hhd
  have hnn : ∀ e ∈ hd, 0 ≤ e.k := by
    intro e he
    obtain ⟨p, hp, rfl⟩ := List.mem_map.1 he
    have hz := mem_of_mem_zipIdx hp
    have h1 := (List.of_mem_zip hz).1
    exact (entryOf_row (p := p) hC hC63 (h.rect _ h1) (h.bin _ h1)).2.2
  have hsat : ∀ x, Sat C hd x ↔ ∀ p ∈ A.zip b, dot p.1 x = p.2 := by
    intro x
    rw [← henc]
    unfold Sat Entry.eqn
    simp only [List.forall_mem_map]
  unfold elimC elim
  rw [hencode]
  simp only [ok_bind]
  rcases elimListC_cmp C hnn with ⟨g1, g2⟩ | ⟨g1, g2⟩
  · left
    rw [g1]
    refine ⟨rfl, ?_⟩
    intro A' b' he x hx
    rw [← hsat]
    obtain ⟨hd₂, out, henc₂, -, -, -, hrout, -, -, -, -, hel⟩ := elim_entries h hC hC63 hcov
    obtain ⟨out', ho', hdec⟩ := bind_eq_ok.1 he
    refine g2 out' ho' x ?_
    obtain ⟨out₃, h31, h32, -, h34, -⟩ := elimList_spec hd
    have e3 : out₃ = out' := by rw [h31] at ho'; simpa using ho'
    subst e3
    have hrange : Ranged C (removeZeroKeys hd) := by
      intro e he
      obtain ⟨he1, he2⟩ := mem_removeZeroKeys.1 he
      obtain ⟨p, hp, rfl⟩ := List.mem_map.1 he1
      have hz := mem_of_mem_zipIdx hp
      have h1 := (List.of_mem_zip hz).1
      have h2 := (List.of_mem_zip hz).2
      have h3 := entryOf_row (p := p) hC hC63 (h.rect _ h1) (h.bin _ h1)
      exact ⟨he2, h3.2.1, (h.range _ h2).1, (h.range _ h2).2⟩
    have hcov' : ∃ e ∈ removeZeroKeys hd, (e.row C).getD 0 0 ≠ 0 := by
      obtain ⟨r, hr, hne⟩ := hcov
      obtain ⟨i, hi, rfl⟩ := List.getElem_of_mem hr
      have hib : i < b.length := by rw [h.len]; exact hi
      have hmem : (A[i], b[i]) ∈ hd.map (Entry.eqn C) := by
        rw [henc, List.mem_iff_getElem]
        exact ⟨i, by simp; omega, by simp⟩
      obtain ⟨e, he, heq⟩ := List.mem_map.1 hmem
      have hrow : e.row C = A[i] := congrArg Prod.fst heq
      refine ⟨e, ?_, by rw [hrow]; exact hne⟩
      rw [mem_removeZeroKeys]
      refine ⟨he, ?_⟩
      rcases (hnn e he).lt_or_eq with h0 | h0
      · exact h0
      · exfalso
        rw [← hrow] at hne
        unfold Entry.row at hne
        rw [← h0] at hne
        exact hne (rowOf_zero_getD C 0)
    have hd3 := decode_ok hC hC63 (h32.ranged hrange) (h32.covered hcov')
    rw [hd3] at hdec
    have e4 : out₃.map (Entry.row C) = A' ∧ out₃.map Entry.v = b' := by simpa using hdec
    rw [← e4.1, ← e4.2, zip_map_row_v] at hx
    intro e he
    exact hx _ (List.mem_map_of_mem he)
  · right
    rw [g1]
    exact ⟨rfl, fun x hx => g2 x ((hsat x).2 hx)⟩

end Gauss

/-! ### steps -/

/-- Values of the unknowns that satisfy the equations and the bounds. -/
structure EqS (Q : Question) (x : Vec) : Prop where
  len : x.length = ncols Q.A
  eq : ∀ p ∈ Q.A.zip Q.b, dot p.1 x = p.2
  bd : List.Forall₂ (fun a b => 0 ≤ a ∧ a ≤ b) x Q.bounds

/-- Complete assignments satisfying the equations. -/
def EqY (Q : Question) (y : Vec) : Prop := ∃ x, EqS Q x ∧ y = fill Q.ans.v x

/-- A step adds no solution. -/
def Back (Q : Question) (r : Res Question) : Prop :=
  ∀ Q', r = .ok Q' → ∀ y, EqY Q' y → EqY Q y

theorem Back.self (Q : Question) : Back Q (.ok Q) := by
  intro Q' h y hy
  cases h
  exact hy

theorem Back.error (Q : Question) (e : Err) : Back Q (.error e) := by
  intro Q' h; cases h

theorem Back.bind {Q : Question} {r : Res Question} {f : Question → Res Question}
    (h : Back Q r) (hf : ∀ Q', r = .ok Q' → Back Q' (f Q')) : Back Q (r >>= f) := by
  intro Q'' hq y hy
  obtain ⟨Q', h1, h2⟩ := bind_eq_ok.1 hq
  exact h Q' h1 y (hf Q' h1 Q'' h2 y hy)

theorem back_check (Q : Question) : Back Q (checkAfter Q) := by
  intro Q' h y hy
  rw [checkAfter_eq h] at hy
  exact hy

theorem asg_eqY {W : Vec} {Q : Question} {ids : List Nat} {w : Nat → Int} (h : Inv W Q)
    (hnd : ids.Nodup) (hlt : ∀ c ∈ ids, c < ncols Q.A)
    (hw : ∀ c ∈ ids, 0 ≤ w c) (hwb : ∀ c ∈ ids, w c ≤ Q.bounds.getD c 0) {y : Vec}
    (hs : EqY (asg Q ids w) y) : EqY Q y := by
  obtain ⟨x', hx', hy⟩ := hs
  obtain ⟨x, h1, h2, h3⟩ := exists_undelete ids w (ncols Q.A) 0 x' (by
    rw [hx'.len, asg_ncols h]
    exact keepIdx_length (by simp))
  have hxw : ∀ c ∈ ids, x.getD c 0 = w c := fun c hc => h3 c hc (Nat.zero_le _) (by
    have := hlt c hc; omega)
  have h2' : npDelete ids x = x' := h2
  refine ⟨x, ⟨h1, ?_, ?_⟩, ?_⟩
  · intro p hp
    have e1 := asg_dot h hnd hlt h1 hxw (List.of_mem_zip hp).1
    have e2 := hx'.eq _ (by rw [asg_zip]; exact List.mem_map_of_mem hp)
    simp only [h2'] at e1 e2
    omega
  · refine forall₂_undelete (ids := ids) 0 0 x Q.bounds 0 (by rw [h1, h.blen]) ?_ ?_
    · have := hx'.bd
      rw [← h2'] at this; exact this
    · intro c hc _ _
      rw [Nat.sub_zero, hxw c hc]
      exact ⟨hw c hc, hwb c hc⟩
  · rw [hy, ← h2', asg_fill h hw h1 hxw]

theorem setBounds_back {W : Vec} {Q : Question} (h : Inv W Q) {y : Vec}
    (hy : EqY { Q with bounds := Bounds.lowerUpperBound Q.A Q.b Q.bounds } y) : EqY Q y := by
  obtain ⟨x, hx, hy⟩ := hy
  have hsub : SubY { Q with bounds := Bounds.lowerUpperBound Q.A Q.b Q.bounds } y :=
    ⟨x, ⟨hx.len, fun p hp => (hx.eq p hp).le, hx.bd⟩, hy⟩
  obtain ⟨x', hx', hy'⟩ := (setBounds_ok h).ok.2.2.2 y hsub
  have e : x' = x := fill_injective (v := Q.ans.v) (by rw [hx'.len, h.unk])
    (by rw [hx.len, h.unk]) (by rw [← hy', hy])
  subst e
  exact ⟨x', ⟨hx.len, hx.eq, hx'.bd⟩, hy⟩

theorem zeroInB_back {W : Vec} {Q : Question} (h : Inv W Q) : Back Q (zeroInB Q) := by
  unfold zeroInB
  refine Back.bind ?_ (fun Q' _ => back_check Q')
  rw [zeroInBBody_eq h]
  have hi := (setBounds_ok h).ok.1
  intro Q' hq y hy
  cases hq
  refine setBounds_back h (asg_eqY hi (npWhere_nodup _ _) ?_ (fun _ _ => le_refl _) ?_ hy)
  · intro c hc
    have := (mem_zeroBoundLoc.1 hc).1
    have hb := hi.blen
    simp only at hb ⊢
    omega
  · intro c hc
    exact (mem_zeroBoundLoc.1 hc).2.ge

theorem only1With_asg {W : Vec} {Q Q' : Question} {rcs : List (Nat × Nat)} (h : Inv W Q)
    (hr : Bounds.RcsOK Q.A rcs) (hq : only1With rcs Q = .ok Q') : Q' = Q ∨
      ∃ (cs : List Nat) (w : Nat → Int), cs.Nodup ∧ (∀ c ∈ cs, c < ncols Q.A) ∧
        (∀ c ∈ cs, 0 ≤ w c) ∧ (∀ c ∈ cs, w c ≤ Q.bounds.getD c 0) ∧ Q' = asg Q cs w := by
  unfold only1With at hq
  obtain ⟨_, -, hq⟩ := bind_eq_ok.1 hq
  by_cases hemp : rcs.isEmpty = true
  · rw [if_pos hemp] at hq
    left; simpa using hq.symm
  rw [if_neg hemp] at hq
  right
  obtain ⟨w, hw⟩ := exists_w hr.nodup (fun rc => Q.b.getD rc.1 0)
  have hcsub : rcs.map (fun rc => Q.b.getD rc.1 0) = (rcs.map Prod.snd).map w := by
    rw [List.map_map]
    apply List.map_congr_left
    intro rc hrc; exact (hw rc hrc).symm
  have hpairs : rcs.map (fun rc => (rc.2, Q.b.getD rc.1 0)) =
      (rcs.map Prod.snd).map (fun c => (c, w c)) := by
    rw [List.map_map]
    apply List.map_congr_left
    intro rc hrc
    simp only [Function.comp]; rw [hw rc hrc]
  rw [hcsub, hpairs] at hq
  have hnd := hr.nodup
  set cs := rcs.map Prod.snd with hcs
  have hrow : ∀ rc ∈ rcs, Q.A.getD rc.1 [] ∈ Q.A ∧ Q.b.getD rc.1 0 ∈ Q.b := by
    intro rc hrc
    have hlt := (hr.row rc hrc).1
    have hltb : rc.1 < Q.b.length := by rw [h.sys.len]; exact hlt
    rw [List.getD_eq_getElem _ _ hlt, List.getD_eq_getElem _ _ hltb]
    exact ⟨List.getElem_mem _, List.getElem_mem _⟩
  have hclt : ∀ c ∈ cs, c < ncols Q.A := by
    intro c hc
    obtain ⟨rc, hrc, rfl⟩ := List.mem_map.1 hc
    have h1 := hrow rc hrc
    have h2 := h.sys.rect _ h1.1
    have := (Bounds.dot_single (x := Q.A.getD rc.1 []) (h.sys.bin _ h1.1) (hr.row rc hrc).2 rfl).2.1
    omega
  have hw0 : ∀ c ∈ cs, 0 ≤ w c := by
    intro c hc
    obtain ⟨rc, hrc, rfl⟩ := List.mem_map.1 hc
    rw [hw rc hrc]
    exact (h.sys.range _ (hrow rc hrc).2).1
  have hsumw : 0 ≤ (cs.map w).sum := sum_nonneg' hw0
  refine ⟨cs, w, hnd, hclt, hw0, ?_, ?_⟩
  all_goals by_cases c1 : (rcs.any
      (fun rc => decide (Q.b.getD rc.1 0 > Q.bounds.getD rc.2 0))) = true
  all_goals first | (rw [if_pos c1] at hq; cases hq) | rw [if_neg c1] at hq
  · intro c hc
    obtain ⟨rc, hrc, rfl⟩ := List.mem_map.1 hc
    rw [hw rc hrc]
    simp only [List.any_eq_true, decide_eq_true_eq, not_exists, not_and] at c1
    have := c1 rc hrc
    omega
  by_cases c2 : (cs.map w).sum > Q.quota
  · rw [if_pos c2] at hq; cases hq
  rw [if_neg c2] at hq
  have hq127 := h.quota127
  have hupd : ∀ r ∈ Q.A, 0 ≤ (cs.map (fun c => r.getD c 0 * w c)).sum ∧
      (cs.map (fun c => r.getD c 0 * w c)).sum ≤ (cs.map w).sum := by
    intro r hr'
    constructor
    · apply sum_nonneg'
      intro c hc
      have := hw0 c hc
      rcases (h.sys.bin r hr').getD c with h3 | h3 <;> rw [h3] <;> omega
    · have : 0 ≤ (cs.map (fun c => w c - r.getD c 0 * w c)).sum := by
        apply sum_nonneg'
        intro c hc
        have := hw0 c hc
        rcases (h.sys.bin r hr').getD c with h3 | h3 <;> rw [h3] <;> omega
      rw [sum_map_sub'] at this
      omega
  have hupdeq : Q.A.map (fun row => i8 (dot (cs.map (fun c => row.getD c 0)) (cs.map w))) =
      Q.A.map (fun row => (cs.map (fun c => row.getD c 0 * w c)).sum) := by
    apply List.map_congr_left
    intro r hr'
    rw [dot_map_map]
    have := hupd r hr'
    exact i8_of_range (by omega) (by omega)
  rw [hupdeq] at hq
  have hbeq : List.zipWith (fun x y => i8 (x - y)) Q.b
      (Q.A.map (fun row => (cs.map (fun c => row.getD c 0 * w c)).sum)) = (asg Q cs w).b := by
    unfold asg
    apply List.ext_getElem
    · simp [h.sys.len]
    · intro i h1 h2
      simp only [List.getElem_zipWith, List.getElem_map]
      simp only [List.length_zipWith, List.length_map] at h1
      have g1 := hupd (Q.A[i]'(by omega)) (List.getElem_mem _)
      have g2 := h.sys.range (Q.b[i]'(by omega)) (List.getElem_mem _)
      exact i8_of_range (by omega) (by omega)
  split at hq
  · cases hq
  rw [hbeq, assignAll_eq' (by
    intro p hp
    obtain ⟨c, hc, rfl⟩ := List.mem_map.1 hp
    rw [h.unk]; exact hclt c hc), updAll_asgG hnd w] at hq
  simp only [ok_bind] at hq
  obtain ⟨_, -, hq⟩ := bind_eq_ok.1 hq
  obtain ⟨_, -, hq⟩ := bind_eq_ok.1 hq
  obtain ⟨_, -, hq⟩ := bind_eq_ok.1 hq
  change Except.ok (asg Q cs w) = Except.ok Q' at hq
  simpa using hq.symm

theorem only1_back {W : Vec} {Q : Question} (h : Inv W Q) : Back Q (only1 Q) := by
  unfold only1
  refine Back.bind ?_ (fun Q' _ => back_check Q')
  intro Q' hq y hy
  rcases only1With_asg h (Bounds.oneElementRowLocs_ok Q.A) hq with rfl | ⟨cs, w, h1, h2, h3, h4, rfl⟩
  · exact hy
  · exact asg_eqY h h1 h2 h3 h4 hy

/-- Outcome of a corrected step against the original one. -/
def Cmp (W : Vec) (Q : Question) (rC r : Res Question) : Prop :=
  (rC = r ∧ Back Q r) ∨ (rC = .error .noSolution ∧ ∀ y, ¬ SolY W Q y)

theorem eliminateC_cmp {W : Vec} {Q : Question} (h : Inv W Q) :
    Cmp W Q (eliminateC Q) (eliminate Q) := by
  unfold eliminateC eliminate eliminateBodyC eliminateBody
  by_cases h0 : ncols Q.A = 0
  · rw [if_pos h0, if_pos h0]
    exact Or.inl ⟨rfl, back_check Q⟩
  rw [if_neg h0, if_neg h0]
  rcases Gauss.elimC_cmp h.sys (by omega) h.cols (h.cov 0 (by omega)) with ⟨g1, g2⟩ | ⟨g1, g2⟩
  · left
    rw [g1]
    refine ⟨rfl, ?_⟩
    refine Back.bind ?_ (fun Q' _ => back_check Q')
    intro Q' hq y hy
    obtain ⟨⟨A', b'⟩, he, hq⟩ := bind_eq_ok.1 hq
    obtain ⟨_, -, hq⟩ := bind_eq_ok.1 hq
    cases hq
    obtain ⟨A₂, b₂, he₂, hs⟩ := Gauss.elim_spec h.sys (by omega) h.cols (h.cov 0 (by omega))
    rw [he] at he₂
    cases he₂
    have hn : ncols A' = ncols Q.A := hs.sys.ncols
    obtain ⟨x, hx, hy⟩ := hy
    exact ⟨x, ⟨by rw [← hn]; exact hx.len, g2 A' b' he x hx.eq, hx.bd⟩, hy⟩
  · right
    rw [g1]
    refine ⟨rfl, ?_⟩
    rintro y ⟨x, hx, -⟩
    exact g2 x hx.eq

theorem reducePassC_cmp {W : Vec} {Q : Question} (h : Inv W Q) :
    Cmp W Q (reducePassC Q) (reducePass Q) := by
  unfold reducePassC reducePass
  have e : reduceCol Q = checkAfter Q := by unfold reduceCol; rw [reduceColBody_id h]; rfl
  rw [e]
  rcases checkAfter_cases h with ⟨h1, -⟩ | ⟨h1, h2⟩
  swap
  · right; rw [h1]; exact ⟨rfl, h2⟩
  rw [h1]
  simp only [ok_bind]
  rcases eliminateC_cmp h with ⟨g1, g2⟩ | ⟨g1, g2⟩
  swap
  · right; rw [g1]; exact ⟨rfl, g2⟩
  left
  rw [g1]
  refine ⟨rfl, Back.bind g2 (fun Q2 hq2 => ?_)⟩
  have hs := eliminate_ok h
  rw [hq2] at hs
  refine Back.bind (zeroInB_back hs.ok.1) (fun Q3 hq3 => ?_)
  have hz := zeroInB_ok hs.ok.1
  rw [hq3] at hz
  exact only1_back hz.ok.1

theorem reduceLoopC_cmp {W : Vec} (n : Nat) : ∀ {Q : Question}, Inv W Q →
    Cmp W Q (reduceLoopC n Q) (reduceLoop n Q) := by
  induction n with
  | zero => intro Q _; exact Or.inl ⟨rfl, Back.error _ _⟩
  | succ n ih =>
    intro Q h
    rw [reduceLoopC, reduceLoop]
    rcases reducePassC_cmp h with ⟨g1, g2⟩ | ⟨g1, g2⟩
    swap
    · right; rw [g1]; exact ⟨rfl, g2⟩
    rw [g1]
    cases hr : reducePass Q with
    | error e => exact Or.inl ⟨rfl, Back.error _ _⟩
    | ok Q' =>
      simp only [ok_bind]
      by_cases he : Q' = Q
      · rw [if_pos he, if_pos he]
        left
        rw [hr] at g2
        exact ⟨rfl, g2⟩
      · rw [if_neg he, if_neg he]
        have hp := reducePass_ok h
        rw [hr] at hp g2
        rcases ih hp.ok.1 with ⟨k1, k2⟩ | ⟨k1, k2⟩
        · left
          refine ⟨k1, ?_⟩
          intro Q'' hq y hy
          exact g2 Q' rfl y (k2 Q'' hq y hy)
        · right
          exact ⟨k1, fun y hy => k2 y (hp.ok.2.2.1 y hy)⟩

/-! ### the search below a question -/

/-- The corrected search yields part of what the original yields, in the same order; all of it
solves the equations, and no solution is missing. -/
def TreeC (W : Vec) (Q : Question) (r rC : Res (List Vec)) : Prop :=
  ∃ ys ysC : List Vec, r = .ok (ys.map (binz W)) ∧ rC = .ok (ysC.map (binz W)) ∧
    ysC.Sublist ys ∧ (∀ y ∈ ysC, EqY Q y ∧ Within y W) ∧ (∀ y, SolY W Q y → y ∈ ysC)

theorem fork_eqY {W : Vec} {Q : Question} (h : Inv W Q) {j : Nat} (hj : j < ncols Q.A) {q : Int}
    (hq : q ∈ forkVals Q j) {y : Vec} (hy : EqY (asg Q [j] (fun _ => q)) y) : EqY Q y := by
  have hq' := hq
  unfold forkVals at hq'
  rw [List.mem_filter, mem_pyRange] at hq'
  refine asg_eqY h (by simp) (by simpa using hj) (by intro c _; show (0 : Int) ≤ q; omega) ?_ hy
  intro c hc
  rw [List.mem_singleton] at hc
  subst hc
  show q ≤ _
  omega

/-- Both programs agree on a visited question, or the corrected one stops there. -/
theorem visitC_cmp {W : Vec} {Q Q1 : Question}
    (hc : Cmp W Q1 (reduceLoopC (reduceFuel Q) Q) (reduceLoop (reduceFuel Q) Q)) :
    (visitC Q = visit Q ∧ Back Q1 (reduceLoop (reduceFuel Q) Q)) ∨
    (visitC Q = .ok ([], []) ∧ ∀ y, ¬ SolY W Q1 y) := by
  unfold visitC visit
  rcases hc with ⟨h1, h2⟩ | ⟨h1, h2⟩
  · rw [h1]; exact Or.inl ⟨rfl, h2⟩
  · rw [h1]; exact Or.inr ⟨rfl, h2⟩

theorem childrenC {W : Vec} {Q : Question} {j n : Nat} (h : Inv W Q) (hj : j < ncols Q.A)
    (ih : ∀ q ∈ forkVals Q j, TreeC W (asg Q [j] (fun _ => q))
      (solveTree n (asg Q [j] (fun _ => q))) (solveTreeC n (asg Q [j] (fun _ => q)))) :
    ∀ l : List Int, (∀ q ∈ l, q ∈ forkVals Q j) →
    ∃ (rs rsC : List (List Vec)) (ys ysC : List Vec),
      (l.map (fun q => asg Q [j] (fun _ => q))).mapM (solveTree n) = .ok rs ∧
      (l.map (fun q => asg Q [j] (fun _ => q))).mapM (solveTreeC n) = .ok rsC ∧
      rs.flatten = ys.map (binz W) ∧ rsC.flatten = ysC.map (binz W) ∧ ysC.Sublist ys ∧
      (∀ y ∈ ysC, EqY Q y ∧ Within y W) ∧
      (∀ q ∈ l, ∀ y, SolY W (asg Q [j] (fun _ => q)) y → y ∈ ysC) := by
  intro l
  induction l with
  | nil =>
    intro _
    exact ⟨[], [], [], [], rfl, rfl, rfl, rfl, List.Sublist.refl _, by simp, by simp⟩
  | cons q l ihl =>
    intro hl
    obtain ⟨rs, rsC, ys, ysC, h1, h2, h3, h4, h5, h6, h7⟩ :=
      ihl (fun q hq => hl q (by simp [hq]))
    obtain ⟨zs, zsC, g1, g2, g3, g4, g5⟩ := ih q (hl q (by simp))
    refine ⟨zs.map (binz W) :: rs, zsC.map (binz W) :: rsC, zs ++ ys, zsC ++ ysC, ?_, ?_, ?_, ?_,
      g3.append h5, ?_, ?_⟩
    · rw [List.map_cons, List.mapM_cons, g1, h1]; rfl
    · rw [List.map_cons, List.mapM_cons, g2, h2]; rfl
    · rw [List.flatten_cons, h3, List.map_append]
    · rw [List.flatten_cons, h4, List.map_append]
    · intro y hy
      rcases List.mem_append.1 hy with hy | hy
      · exact ⟨fork_eqY h hj (hl q (by simp)) (g4 y hy).1, (g4 y hy).2⟩
      · exact h6 y hy
    · intro q' hq' y hy
      rcases List.mem_cons.1 hq' with rfl | hq'
      · exact List.mem_append_left _ (g5 y hy)
      · exact List.mem_append_right _ (h7 q' hq' y hy)

theorem eqY_of_final {W : Vec} {Q : Question} (h : Inv W Q) (hc : checkAfter Q = .ok Q)
    (h0 : ncols Q.A = 0) : EqY Q Q.ans.v := by
  have hb : ∀ x ∈ Q.b, x = 0 := by
    rcases checkAfter_cases h with h1 | h1
    · exact h1.2.1 h0
    · rw [hc] at h1; cases h1.1
  refine ⟨[], ⟨by rw [h0]; rfl, ?_, ?_⟩, (fill_of_unk_zero (by rw [h.unk]; exact h0)).symm⟩
  · intro p hp
    rw [dot_nil_right, hb _ (List.of_mem_zip hp).2]
  · have := h.blen
    rw [h0] at this
    rw [List.eq_nil_of_length_eq_zero this]
    exact List.Forall₂.nil

theorem solveTreeC_of_loop {W : Vec} {n : Nat} {Q Q1 : Question}
    (hl : LoopOK W Q1 (reduceLoop (reduceFuel Q) Q))
    (hc : Cmp W Q1 (reduceLoopC (reduceFuel Q) Q) (reduceLoop (reduceFuel Q) Q))
    (hT : ∃ ys : List Vec, solveTree (n + 1) Q = .ok (ys.map (binz W)))
    (ih : ∀ Q'', Inv W Q'' → ncols Q''.A + 1 ≤ ncols Q1.A →
      TreeC W Q'' (solveTree n Q'') (solveTreeC n Q'')) :
    TreeC W Q1 (solveTree (n + 1) Q) (solveTreeC (n + 1) Q) := by
  rcases visitC_cmp hc with ⟨hv, hback⟩ | ⟨hv, hno⟩
  swap
  · obtain ⟨ys, hys⟩ := hT
    refine ⟨ys, [], hys, ?_, List.nil_sublist _, by simp, fun y hy => absurd hy (hno y)⟩
    rw [solveTreeC, hv]
    rfl
  rw [solveTree, solveTreeC, hv]
  obtain ⟨hs, hf⟩ := hl
  unfold visit
  match hr : reduceLoop (reduceFuel Q) Q, hs, hf, hback with
  | .error .noSolution, hs, _, _ =>
    exact ⟨[], [], rfl, rfl, List.Sublist.refl _, by simp, fun y hy => absurd hy (hs y)⟩
  | .ok Q', hs, hf, hback =>
    have hck := (hf Q' rfl).2
    obtain ⟨hi, hle, hfw, -⟩ := hs.ok
    have hbk : ∀ y, EqY Q' y → EqY Q1 y := hback Q' rfl
    simp only [ok_bind]
    by_cases hu : Q'.ans.unknown = true
    · have h0 : 0 < ncols Q'.A := by rw [← hi.unk]; exact (unknown_iff _).1 hu
      obtain ⟨j, hj, he⟩ := forkEnum_eq hi hck h0
      rw [if_pos hu, he]
      simp only [ok_bind]
      have hspec := fork_spec hi hj
      have hrev : ((forkVals Q' j).map (fun q => asg Q' [j] (fun _ => q))).reverse =
          (forkVals Q' j).reverse.map (fun q => asg Q' [j] (fun _ => q)) := List.map_reverse.symm
      obtain ⟨rs, rsC, ys, ysC, h1, h2, h3, h4, h5, h6, h7⟩ := childrenC (n := n) hi hj (by
        intro q hq
        have := hspec.inv q hq
        exact ih _ this.1 (by omega)) (forkVals Q' j).reverse
        (by intro q hq; exact List.mem_reverse.1 hq)
      rw [hrev, h1, h2]
      simp only [ok_bind]
      refine ⟨ys, ysC, by rw [h3]; rfl, by rw [h4]; rfl, h5, fun y hy => ⟨hbk y (h6 y hy).1, (h6 y hy).2⟩, ?_⟩
      intro y hy
      obtain ⟨q, hq, hyq⟩ := hspec.solY y (hfw y hy)
      exact h7 q (List.mem_reverse.2 hq) y hyq
    · have h0 : ncols Q'.A = 0 := by
        rw [← hi.unk]
        by_contra hne
        exact hu ((unknown_iff _).2 (by omega))
      have hw := within_of_final hi hck h0
      rw [if_neg hu, binarize_eq hw hi.lay]
      refine ⟨[Q'.ans.v], [Q'.ans.v], rfl, rfl, List.Sublist.refl _, ?_, ?_⟩
      · intro y hy
        rw [List.mem_singleton] at hy; subst hy
        exact ⟨hbk _ (eqY_of_final hi hck h0), hw⟩
      · intro y hy
        rw [List.mem_singleton]
        exact solY_of_final hi h0 (hfw y hy)

theorem solveTreeC_ok {W : Vec} (n : Nat) : ∀ Q, Inv W Q → ncols Q.A + 1 ≤ n →
    TreeC W Q (solveTree n Q) (solveTreeC n Q) := by
  induction n with
  | zero => intro Q _ hn; omega
  | succ n ih =>
    intro Q h hn
    obtain ⟨ys, hys, -⟩ := solveTree_ok (n + 1) Q h hn
    exact solveTreeC_of_loop (reduceLoop_ok _ h (by unfold reduceFuel; omega))
      (reduceLoopC_cmp _ h) ⟨ys, hys⟩ (fun Q'' h'' hlt => ih Q'' h'' (by omega))

theorem reduceLoopC_pre {Q : Question} (h : Pre Q) (n : Nat) :
    Cmp (widths Q) (merged Q) (reduceLoopC (n + 1) Q) (reduceLoop (n + 1) Q) := by
  have hinv := merged_inv h
  have e : reducePassC Q = reducePassC (merged Q) := by
    have e : reduceCol Q = reduceCol (merged Q) := by
      unfold reduceCol
      rw [reduceColBody_pre h, reduceColBody_id hinv]
    unfold reducePassC
    rw [e]
  rw [reduceLoopC, reduceLoop, reducePass_pre h, e]
  rcases reducePassC_cmp hinv with ⟨g1, g2⟩ | ⟨g1, g2⟩
  swap
  · right; rw [g1]; exact ⟨rfl, g2⟩
  rw [g1]
  cases hr : reducePass (merged Q) with
  | error e => exact Or.inl ⟨rfl, Back.error _ _⟩
  | ok Q' =>
    simp only [ok_bind]
    have hp := reducePass_ok hinv
    rw [hr] at hp g2
    by_cases he : Q' = Q
    · rw [if_pos he, if_pos he]
      exact Or.inl ⟨rfl, g2⟩
    · rw [if_neg he, if_neg he]
      rcases reduceLoopC_cmp n hp.ok.1 with ⟨k1, k2⟩ | ⟨k1, k2⟩
      · left
        refine ⟨k1, ?_⟩
        intro Q'' hq y hy
        exact g2 Q' rfl y (k2 Q'' hq y hy)
      · right
        exact ⟨k1, fun y hy => k2 y (hp.ok.2.2.1 y hy)⟩

theorem solveQuestionC_pre {Q : Question} (h : Pre Q) :
    TreeC (widths Q) (merged Q) (solveQuestion Q) (solveQuestionC Q) := by
  obtain ⟨ys, hys, -⟩ := solveQuestion_pre h
  unfold solveQuestion at hys ⊢
  unfold solveQuestionC
  refine solveTreeC_of_loop (reduceLoop_pre h _ (by unfold reduceFuel; omega))
    (by unfold reduceFuel; exact reduceLoopC_pre h _) ⟨ys, hys⟩ ?_
  intro Q'' h'' hlt
  refine solveTreeC_ok _ _ h'' ?_
  have := firsts_le (Q := Q)
  rw [merged_ncols h] at hlt
  omega

/-- A sublist without repetitions is a filter. -/
theorem sublist_eq_filter {α : Type} {p : α → Prop} [DecidablePred p] {l s : List α}
    (hs : s.Sublist l) (hl : l.Nodup) (hp : ∀ a ∈ s, p a) (hq : ∀ a ∈ l, p a → a ∈ s) :
    s = l.filter (fun a => decide (p a)) := by
  induction hs with
  | slnil => rfl
  | @cons s l a hs ih =>
    rw [List.nodup_cons] at hl
    have ha : ¬ p a := fun h => hl.1 (hs.subset (hq a (by simp) h))
    rw [List.filter_cons, if_neg (by simpa using ha)]
    exact ih hl.2 hp (fun b hb hpb => hq b (List.mem_cons_of_mem _ hb) hpb)
  | @cons_cons s l a hs ih =>
    rw [List.nodup_cons] at hl
    rw [List.filter_cons, if_pos (by simpa using hp a (by simp))]
    congr 1
    refine ih hl.2 (fun b hb => hp b (by simp [hb])) ?_
    intro b hb hpb
    rcases List.mem_cons.1 (hq b (List.mem_cons_of_mem _ hb) hpb) with rfl | h
    · exact absurd hb hl.1
    · exact h

instance (Q : Question) (x : Vec) : Decidable (Sat01 Q x) := by
  unfold Sat01 Bin; infer_instance

/-- The corrected search keeps exactly the rows that satisfy the equations. -/
theorem solveQuestionC_rows {Q : Question} (h : Pre Q) (hc : AdjCols Q.A (ncols Q.A)) :
    ∃ rows, solveQuestion Q = .ok rows ∧
      solveQuestionC Q = .ok (rows.filter (fun x => decide (Sat01 Q x))) := by
  obtain ⟨rows, h1, h2, h3, h4⟩ := solveQuestion_rows h hc
  obtain ⟨ys, ysC, g1, g2, g3, g4, g5⟩ := solveQuestionC_pre h
  refine ⟨rows, h1, ?_⟩
  rw [g2]
  congr 1
  have e : ys.map (binz (widths Q)) = rows := by rw [g1] at h1; simpa using h1
  have hsub : (ysC.map (binz (widths Q))).Sublist rows := by rw [← e]; exact g3.map _
  refine sublist_eq_filter hsub h2 ?_ ?_
  · intro x hx
    obtain ⟨⟨a1, a2, -⟩, -⟩ := h3 x (hsub.subset hx)
    refine ⟨a1, a2, ?_⟩
    obtain ⟨y, hy, rfl⟩ := List.mem_map.1 hx
    obtain ⟨⟨z, hz, e2⟩, hw⟩ := g4 y hy
    rw [merged_fill h hz.len] at e2
    subst e2
    obtain ⟨k1, -, -, k4⟩ := binz_spec h hc hw
    intro p hp
    have := hz.eq ((firsts Q).map (fun j => p.1.getD j 0), p.2) (by
      show _ ∈ (Q.A.map _).zip Q.b
      rw [List.zip_map_left]
      exact List.mem_map.2 ⟨p, hp, rfl⟩)
    simp only at this
    rw [← dot_counts h k1 (List.of_mem_zip hp).1, k4]
    exact this
  · intro x hx hsat
    have hs := counts_sol h hsat
    have hb := binz_counts h hc hsat.1 hsat.2.1 (h3 x hx).2
    rw [← hb]
    refine List.mem_map.2 ⟨_, g5 _ ⟨counts Q x, hs, (merged_fill h hs.len).symm, ?_⟩, rfl⟩
    rw [widths_eq h hc]
    exact List.Forall₂.imp (fun _ _ hab => hab.2) (counts_bd hsat.2.1)

end TDS
