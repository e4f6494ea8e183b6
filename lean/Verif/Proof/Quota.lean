import Verif.Proof.Checked
import Verif.Model.Quota

/-! The program without the guard on the quota check, against the original: questions. -/

namespace TDS

/-! ### what is known plus what is still to be placed -/

/-- Sum of the entries that are known. -/
def knownSum (v : Vec) : Int := v.sum + unk v

/-- The sum that every answer to the question should have. -/
def Tot (Q : Question) : Int := knownSum Q.ans.v + Q.quota

theorem fill_sum {v x : Vec} (h : x.length = unk v) : (fill v x).sum = knownSum v + x.sum := by
  unfold knownSum
  induction v generalizing x with
  | nil => cases x <;> simp_all [fill, unk]
  | cons a v ih =>
    rw [unk_cons] at h ⊢
    by_cases ha : a = -1
    · subst ha
      rw [if_pos rfl] at h ⊢
      match x, h with
      | y :: x, h =>
        rw [fill_unknown]
        have := ih (x := x) (by simpa using h)
        simp only [List.sum_cons]
        push_cast
        omega
    · rw [if_neg ha] at h ⊢
      rw [fill_known ha]
      have := ih (x := x) (by simpa using h)
      simp only [List.sum_cons]
      push_cast
      omega

theorem asg_tot {W : Vec} {Q : Question} {ids : List Nat} {w : Nat → Int} (h : Inv W Q)
    (hnd : ids.Nodup) (hlt : ∀ c ∈ ids, c < ncols Q.A) (hw : ∀ c ∈ ids, 0 ≤ w c)
    (hu : unk (asg Q ids w).ans.v = ncols (asg Q ids w).A) : Tot (asg Q ids w) = Tot Q := by
  obtain ⟨x, h1, h2, h3⟩ := exists_undelete ids w (ncols Q.A) 0
    (List.replicate (ncols (asg Q ids w).A) 0) (by
      rw [List.length_replicate, asg_ncols h]
      exact keepIdx_length (by simp))
  have hxw : ∀ c ∈ ids, x.getD c 0 = w c := fun c hc => h3 c hc (Nat.zero_le _) (by
    have := hlt c hc; omega)
  have h2' : npDelete ids x = List.replicate (ncols (asg Q ids w).A) 0 := h2
  have e := congrArg List.sum (asg_fill h hw h1 hxw)
  have hs := sum_npDelete (l := x) hnd (by rw [h1]; exact hlt)
  rw [List.map_congr_left hxw] at hs
  rw [fill_sum (by rw [h2', List.length_replicate, hu]), fill_sum (by rw [h1, h.unk])] at e
  unfold Tot
  show knownSum (asg Q ids w).ans.v + (Q.quota - (ids.map w).sum) = _
  omega

/-- A step leaves the total as it is. -/
def Keeps (Q : Question) (r : Res Question) : Prop := ∀ Q', r = .ok Q' → Tot Q' = Tot Q

theorem Keeps.bind {Q : Question} {r : Res Question} {f : Question → Res Question}
    (h : Keeps Q r) (hf : ∀ Q', r = .ok Q' → Keeps Q' (f Q')) : Keeps Q (r >>= f) := by
  intro Q'' hq
  obtain ⟨Q', h1, h2⟩ := bind_eq_ok.1 hq
  rw [hf Q' h1 Q'' h2, h Q' h1]

theorem keeps_check (Q : Question) : Keeps Q (checkAfter Q) := by
  intro Q' h
  rw [checkAfter_eq h]

/-! ### one step -/

/-- No unknown is left, but the quota is not used up. -/
def Short (Q : Question) : Prop := ncols Q.A = 0 ∧ 0 < Q.quota

instance (Q : Question) : Decidable (Short Q) := by unfold Short; infer_instance

/-- Reject results that are short. -/
def kill (r : Res Question) : Res Question :=
  match r with
  | .ok Q => if Short Q then .error .noSolution else .ok Q
  | .error e => .error e

theorem kill_ok_short {Q : Question} (h : Short Q) : kill (.ok Q) = .error .noSolution := if_pos h
theorem kill_ok {Q : Question} (h : ¬ Short Q) : kill (.ok Q) = .ok Q := if_neg h

theorem checkAfterD_eq {W : Vec} {Q : Question} (h : Inv W Q) :
    checkAfterD Q = kill (checkAfter Q) := by
  unfold checkAfterD checkAfter
  simp only [h.lay.quota]
  by_cases c1 : (ncols Q.A == 0 && Q.b.any (· != 0)) = true
  · rw [if_pos c1, if_pos c1]; rfl
  rw [if_neg c1, if_neg c1, h.blen]
  simp only [beq_self_eq_true, pyAssert_true, ok_bind]
  by_cases h0 : ncols Q.A = 0
  · have hb : Q.bounds = [] := List.eq_nil_of_length_eq_zero (by rw [h.blen, h0])
    rw [h0, hb]
    simp only [gt_iff_lt, lt_self_iff_false, decide_false, Bool.false_and, Bool.false_eq_true,
      if_false, List.sum_nil]
    by_cases hq : 0 < Q.quota
    · rw [if_pos hq]
      split
      · rfl
      · rw [kill_ok_short ⟨h0, hq⟩]
    · rw [if_neg hq]
      split
      · rfl
      · rw [kill_ok (fun hs => hq hs.2)]
  · have hns : ¬ Short Q := fun hs => h0 hs.1
    by_cases c2 : Q.bounds.sum < Q.quota
    · have c3 : (decide (ncols Q.A > 0) && decide (Q.bounds.sum < Q.quota)) = true := by
        simp [c2]; omega
      rw [if_pos c2, if_pos c3]; rfl
    · have c3 : ¬ (decide (ncols Q.A > 0) && decide (Q.bounds.sum < Q.quota)) = true := by
        simp only [decide_eq_false c2, Bool.and_false]; simp
      rw [if_neg c2, if_neg c3]
      split
      · rfl
      · rw [kill_ok hns]

/-- A step, and the same step without the guard. -/
structure StepD (W : Vec) (Q : Question) (r rD : Res Question) : Prop where
  ok : StepOK W Q r
  keep : Keeps Q r
  eq : rD = kill r

theorem short_of_step {W : Vec} {Q Q' : Question} (hi : Inv W Q) (h : StepOK W Q (.ok Q'))
    (hk : Tot Q' = Tot Q) (hs : Short Q) : Short Q' := by
  obtain ⟨h1, h2, -, h4⟩ := h.ok
  have h0 : ncols Q'.A = 0 := by have := hs.1; omega
  obtain ⟨x, -, e⟩ := h4 _ (subY_of_final h1 h0)
  rw [fill_of_unk_zero (by rw [hi.unk]; exact hs.1)] at e
  unfold Tot at hk
  rw [e] at hk
  refine ⟨h0, ?_⟩
  have := hs.2
  omega

theorem StepD.check {W : Vec} {Q : Question} (h : Inv W Q) :
    StepD W Q (checkAfter Q) (checkAfterD Q) :=
  ⟨checkAfter_ok h, keeps_check Q, checkAfterD_eq h⟩

/-- A step that fails or succeeds without a check, followed by the check. -/
theorem StepD.body {W : Vec} {Q : Question} {r : Res Question} (h : StepOK W Q r)
    (hk : Keeps Q r) : StepD W Q (r >>= checkAfter) (r >>= checkAfterD) := by
  match r, h with
  | .error .noSolution, h => exact ⟨h, (fun Q' e => by cases e), rfl⟩
  | .ok Q', h =>
    have hc := StepD.check h.ok.1
    refine ⟨h.trans hc.ok, ?_, hc.eq⟩
    intro Q'' e
    rw [hc.keep Q'' e, hk Q' rfl]

theorem StepD.bind {W : Vec} {Q : Question} {r rD : Res Question} {f fD : Question → Res Question}
    (h : StepD W Q r rD) (hf : ∀ Q', r = .ok Q' → Inv W Q' → StepD W Q' (f Q') (fD Q')) :
    StepD W Q (r >>= f) (rD >>= fD) := by
  obtain ⟨h1, h2, h3⟩ := h
  subst h3
  match r, h1 with
  | .error .noSolution, h1 => exact ⟨h1, (fun Q' e => by cases e), rfl⟩
  | .ok Q', h1 =>
    have hi := h1.ok.1
    have hq := hf Q' rfl hi
    refine ⟨h1.trans hq.ok, ?_, ?_⟩
    · intro Q'' e
      rw [hq.keep Q'' e, h2 Q' rfl]
    · show (kill (.ok Q') >>= fD) = kill (f Q')
      by_cases hs : Short Q'
      · rw [kill_ok_short hs]
        show (.error .noSolution : Res Question) = _
        match hr : f Q', hq.ok with
        | .error .noSolution, _ => rfl
        | .ok Q'', hok => rw [kill_ok_short (short_of_step hi hok (hq.keep Q'' hr) hs)]
      · rw [kill_ok hs]; exact hq.eq

theorem reduceColD_step {W : Vec} {Q : Question} (h : Inv W Q) :
    StepD W Q (reduceCol Q) (reduceColD Q) := by
  unfold reduceCol reduceColD
  rw [reduceColBody_id h]
  exact StepD.check h

theorem eliminateD_step {W : Vec} {Q : Question} (h : Inv W Q) :
    StepD W Q (eliminate Q) (eliminateD Q) := by
  obtain ⟨A', b', h1, -, h3, -⟩ := eliminateBody_ok h
  unfold eliminate eliminateD
  rw [h1]
  refine StepD.body h3 ?_
  intro Q' e
  cases e
  rfl

theorem zeroInBD_step {W : Vec} {Q : Question} (h : Inv W Q) :
    StepD W Q (zeroInB Q) (zeroInBD Q) := by
  unfold zeroInB zeroInBD
  have hok := zeroInBBody_ok h
  refine StepD.body hok ?_
  intro Q' e
  rw [zeroInBBody_eq h] at e hok
  cases e
  have hi := (setBounds_ok h).ok.1
  refine (asg_tot hi (npWhere_nodup _ _) ?_ (fun _ _ => le_refl _) hok.ok.1.unk).trans rfl
  intro c hc
  have := (mem_zeroBoundLoc.1 hc).1
  have hb := hi.blen
  simp only at hb ⊢
  omega

theorem only1D_step {W : Vec} {Q : Question} (h : Inv W Q) :
    StepD W Q (only1 Q) (only1D Q) := by
  unfold only1 only1D
  have hr := Bounds.oneElementRowLocs_ok Q.A
  have hok := (only1With_ok h hr).1
  refine StepD.body hok ?_
  intro Q' e
  rcases only1With_asg h hr e with rfl | ⟨cs, w, h1, h2, h3, -, rfl⟩
  · rfl
  · rw [e] at hok
    exact asg_tot h h1 h2 h3 hok.ok.1.unk

theorem reducePassD_step {W : Vec} {Q : Question} (h : Inv W Q) :
    StepD W Q (reducePass Q) (reducePassD Q) := by
  unfold reducePass reducePassD
  refine (reduceColD_step h).bind (fun Q1 _ h1 => ?_)
  refine (eliminateD_step h1).bind (fun Q2 _ h2 => ?_)
  exact (zeroInBD_step h2).bind (fun Q3 _ h3 => only1D_step h3)

theorem reduceLoop_step {W : Vec} (n : Nat) : ∀ {Q Q' : Question}, Inv W Q →
    reduceLoop n Q = .ok Q' → StepOK W Q (.ok Q') ∧ Tot Q' = Tot Q := by
  induction n with
  | zero => intro Q Q' _ e; cases e
  | succ n ih =>
    intro Q Q' h e
    rw [reduceLoop] at e
    obtain ⟨Q1, h1, e⟩ := bind_eq_ok.1 e
    have hp := reducePassD_step h
    rw [h1] at hp
    split at e
    · cases e
      exact ⟨hp.ok, hp.keep _ rfl⟩
    · obtain ⟨g1, g2⟩ := ih hp.ok.ok.1 e
      exact ⟨hp.ok.trans g1, g2.trans (hp.keep _ rfl)⟩

theorem reduceLoopD_eq {W : Vec} (n : Nat) : ∀ {Q : Question}, Inv W Q →
    (∀ e, reduceLoop n Q = .error e → e = .noSolution) →
    reduceLoopD n Q = kill (reduceLoop n Q) := by
  induction n with
  | zero => intro Q _ _; rfl
  | succ n ih =>
    intro Q h hne
    have hp := reducePassD_step h
    rw [reduceLoop] at hne
    rw [reduceLoopD, reduceLoop, hp.eq]
    match hr : reducePass Q, hp.ok, hne with
    | .error .noSolution, _, _ => rfl
    | .ok Q', hok, hne =>
      simp only [ok_bind] at hne ⊢
      by_cases hs : Short Q'
      · rw [kill_ok_short hs]
        show (.error .noSolution : Res Question) = _
        by_cases he : Q' = Q
        · rw [if_pos he, kill_ok_short hs]
        · rw [if_neg he] at hne ⊢
          cases hl : reduceLoop n Q' with
          | error e => rw [hne e hl]; rfl
          | ok Q'' =>
            obtain ⟨g1, g2⟩ := reduceLoop_step n hok.ok.1 hl
            rw [kill_ok_short (short_of_step hok.ok.1 g1 g2 hs)]
      · rw [kill_ok hs]
        simp only [ok_bind]
        by_cases he : Q' = Q
        · rw [if_pos he, if_pos he, kill_ok hs]
        · rw [if_neg he] at hne
          rw [if_neg he, if_neg he]
          exact ih hok.ok.1 hne

/-! ### the search below a question -/

theorem binz_sum {y W : Vec} (h : Within y W) : (binz W y).sum = y.sum := by
  induction h with
  | nil => rfl
  | cons h1 _ ih =>
    rw [binz_cons]
    simp only [List.sum_append, sum_replicate_int, List.sum_cons, ih]
    omega

/-- The search without the guard yields what the search in /repo yields, except the answers of the
wrong sum. -/
def TreeD (W : Vec) (T : Int) (r rD : Res (List Vec)) : Prop :=
  ∃ ys : List Vec, r = .ok (ys.map (binz W)) ∧
    rD = .ok ((ys.filter (fun y => decide (y.sum = T))).map (binz W)) ∧ ∀ y ∈ ys, Within y W

theorem childrenD {W : Vec} {T : Int} {n : Nat} : ∀ l : List Question,
    (∀ Q ∈ l, TreeD W T (solveTree n Q) (solveTreeD n Q)) →
    ∃ (rs rsD : List (List Vec)) (ys : List Vec), l.mapM (solveTree n) = .ok rs ∧
      l.mapM (solveTreeD n) = .ok rsD ∧ rs.flatten = ys.map (binz W) ∧
      rsD.flatten = (ys.filter (fun y => decide (y.sum = T))).map (binz W) ∧
      ∀ y ∈ ys, Within y W := by
  intro l
  induction l with
  | nil => intro _; exact ⟨[], [], [], rfl, rfl, rfl, rfl, by simp⟩
  | cons Q l ih =>
    intro hl
    obtain ⟨rs, rsD, ys, h1, h2, h3, h4, h5⟩ := ih (fun Q' hQ => hl Q' (List.mem_cons_of_mem _ hQ))
    obtain ⟨zs, g1, g2, g3⟩ := hl Q (by simp)
    refine ⟨zs.map (binz W) :: rs, (zs.filter (fun y => decide (y.sum = T))).map (binz W) :: rsD,
      zs ++ ys, ?_, ?_, ?_, ?_, ?_⟩
    · rw [List.mapM_cons, g1, h1]; rfl
    · rw [List.mapM_cons, g2, h2]; rfl
    · rw [List.flatten_cons, h3, List.map_append]
    · rw [List.flatten_cons, h4, List.filter_append, List.map_append]
    · intro y hy
      exact (List.mem_append.1 hy).elim (g3 y) (h5 y)

theorem forkEnumD_eq {W : Vec} {Q : Question} (h : Inv W Q) (hc : checkAfter Q = .ok Q)
    (h0 : 0 < ncols Q.A) : forkEnumD Q = forkEnum Q := by
  have e : checkAfterD Q = checkAfter Q := by
    rw [checkAfterD_eq h, hc, kill_ok (fun hs => by have := hs.1; omega)]
  unfold forkEnumD forkEnum
  rw [e]

theorem solveTreeD_of_loop {W : Vec} {n : Nat} {Q Q1 : Question}
    (hl : LoopOK W Q1 (reduceLoop (reduceFuel Q) Q))
    (hk : Keeps Q1 (reduceLoop (reduceFuel Q) Q))
    (hD : reduceLoopD (reduceFuel Q) Q = kill (reduceLoop (reduceFuel Q) Q))
    (ih : ∀ Q'', Inv W Q'' → ncols Q''.A + 1 ≤ ncols Q1.A →
      TreeD W (Tot Q'') (solveTree n Q'') (solveTreeD n Q'')) :
    TreeD W (Tot Q1) (solveTree (n + 1) Q) (solveTreeD (n + 1) Q) := by
  rw [solveTree, solveTreeD]
  unfold visit visitD
  rw [hD]
  obtain ⟨hs, hf⟩ := hl
  match hr : reduceLoop (reduceFuel Q) Q, hs, hf, hk with
  | .error .noSolution, _, _, _ => exact ⟨[], rfl, rfl, by simp⟩
  | .ok Q', hs, hf, hk =>
    have hck := (hf Q' rfl).2
    obtain ⟨hi, hle, -, -⟩ := hs.ok
    have ht : Tot Q' = Tot Q1 := hk Q' rfl
    by_cases hu : Q'.ans.unknown = true
    · have h0 : 0 < ncols Q'.A := by rw [← hi.unk]; exact (unknown_iff _).1 hu
      rw [kill_ok (fun h => by have := h.1; omega)]
      simp only [ok_bind]
      obtain ⟨j, hj, he⟩ := forkEnum_eq hi hck h0
      rw [if_pos hu, if_pos hu, forkEnumD_eq hi hck h0, he]
      simp only [ok_bind]
      have hspec := fork_spec hi hj
      obtain ⟨rs, rsD, ys, h1, h2, h3, h4, h5⟩ := childrenD (W := W) (T := Tot Q1) (n := n)
        ((forkVals Q' j).map (fun q => asg Q' [j] (fun _ => q))).reverse (by
          intro Q'' hQ
          obtain ⟨q, hq, rfl⟩ := List.mem_map.1 (List.mem_reverse.1 hQ)
          have hinv := hspec.inv q hq
          have hq' := hq
          unfold forkVals at hq'
          rw [List.mem_filter, mem_pyRange] at hq'
          have e : Tot (asg Q' [j] (fun _ => q)) = Tot Q1 := by
            rw [← ht]
            exact asg_tot hi (by simp) (by simpa using hj)
              (by intro c _; show (0 : Int) ≤ q; omega) hinv.1.unk
          rw [← e]
          exact ih _ hinv.1 (by omega))
      rw [h1, h2]
      simp only [ok_bind]
      exact ⟨ys, by rw [h3]; rfl, by rw [h4]; rfl, h5⟩
    · have h0 : ncols Q'.A = 0 := by
        rw [← hi.unk]
        by_contra hne
        exact hu ((unknown_iff _).2 (by omega))
      have hw := within_of_final hi hck h0
      have hT : Tot Q1 = Q'.ans.v.sum + Q'.quota := by
        rw [← ht]
        unfold Tot knownSum
        rw [hi.unk, h0]
        simp
      have hq0 := hi.quota0
      refine ⟨[Q'.ans.v], ?_, ?_, by simpa using hw⟩
      · simp only [ok_bind]
        rw [if_neg hu, binarize_eq hw hi.lay]
        rfl
      · by_cases hsh : Short Q'
        · have hne : ¬ Q'.ans.v.sum = Tot Q1 := by have := hsh.2; omega
          rw [kill_ok_short hsh, List.filter_cons, if_neg (by simpa using hne)]
          rfl
        · have heq : Q'.ans.v.sum = Tot Q1 := by
            have : ¬ 0 < Q'.quota := fun h => hsh ⟨h0, h⟩
            omega
          rw [kill_ok hsh, List.filter_cons, if_pos (by simpa using heq)]
          simp only [ok_bind]
          rw [if_neg hu, binarize_eq hw hi.lay]
          rfl

theorem LoopOK.noSolution {W : Vec} {Q : Question} {r : Res Question} (h : LoopOK W Q r) :
    ∀ e, r = .error e → e = .noSolution := by
  intro e he
  subst he
  match e, h.1 with
  | .noSolution, _ => rfl

theorem solveTreeD_ok {W : Vec} (n : Nat) : ∀ Q, Inv W Q → ncols Q.A + 1 ≤ n →
    TreeD W (Tot Q) (solveTree n Q) (solveTreeD n Q) := by
  induction n with
  | zero => intro Q _ hn; omega
  | succ n ih =>
    intro Q h hn
    have hl := reduceLoop_ok (reduceFuel Q) h (by unfold reduceFuel; omega)
    exact solveTreeD_of_loop hl (fun Q' e => (reduceLoop_step _ h e).2)
      (reduceLoopD_eq _ h hl.noSolution) (fun Q'' h'' hlt => ih Q'' h'' (by omega))

theorem knownSum_unknown (n : Nat) : knownSum (List.replicate n UNKNOWN) = 0 := by
  unfold knownSum unk
  rw [sum_replicate_int, List.countP_replicate]
  simp [UNKNOWN]

theorem merged_tot (Q : Question) : Tot (merged Q) = Q.quota := by
  show knownSum (List.replicate _ UNKNOWN) + Q.quota = _
  rw [knownSum_unknown, zero_add]

theorem reduceLoopD_pre {Q : Question} (h : Pre Q) (n : Nat)
    (hne : ∀ e, reduceLoop (n + 1) Q = .error e → e = .noSolution) :
    Keeps (merged Q) (reduceLoop (n + 1) Q) ∧
      reduceLoopD (n + 1) Q = kill (reduceLoop (n + 1) Q) := by
  have hinv := merged_inv h
  have e : reducePassD Q = reducePassD (merged Q) := by
    have e : reduceColD Q = reduceColD (merged Q) := by
      unfold reduceColD
      rw [reduceColBody_pre h, reduceColBody_id hinv]
    unfold reducePassD
    rw [e]
  have hp := reducePassD_step hinv
  rw [reduceLoop, reducePass_pre h] at hne ⊢
  rw [reduceLoopD, e, hp.eq]
  match hr : reducePass (merged Q), hp.ok, hp.keep, hne with
  | .error .noSolution, _, _, _ => exact ⟨(fun Q' e => by cases e), rfl⟩
  | .ok Q', hok, hkeep, hne =>
    have hk := hkeep Q' rfl
    have hi := hok.ok.1
    simp only [ok_bind] at hne ⊢
    by_cases he : Q' = Q
    · rw [if_pos he]
      refine ⟨fun Q'' e => by cases e; exact hk, ?_⟩
      by_cases hs : Short Q'
      · rw [kill_ok_short hs]; rfl
      · rw [kill_ok hs]
        simp only [ok_bind]
        rw [if_pos he]
    · rw [if_neg he] at hne ⊢
      refine ⟨fun Q'' e => (reduceLoop_step n hi e).2.trans hk, ?_⟩
      by_cases hs : Short Q'
      · rw [kill_ok_short hs]
        show (.error .noSolution : Res Question) = _
        cases hl : reduceLoop n Q' with
        | error e => rw [hne e hl]; rfl
        | ok Q'' =>
          obtain ⟨g1, g2⟩ := reduceLoop_step n hi hl
          rw [kill_ok_short (short_of_step hi g1 g2 hs)]
      · rw [kill_ok hs]
        simp only [ok_bind]
        rw [if_neg he]
        exact reduceLoopD_eq n hi hne

/-- Without the guard the search yields exactly the rows whose sum is the quota. -/
theorem solveQuestionD_rows {Q : Question} (h : Pre Q) :
    ∃ rows, solveQuestion Q = .ok rows ∧
      solveQuestionD Q = .ok (rows.filter (fun x => decide (x.sum = Q.quota))) := by
  have hl := reduceLoop_pre h (reduceFuel Q) (by unfold reduceFuel; omega)
  have hD := reduceLoopD_pre h (2 * ncols Q.A + 2) hl.noSolution
  obtain ⟨ys, h1, h2, h3⟩ : TreeD (widths Q) (Tot (merged Q)) (solveQuestion Q) (solveQuestionD Q) := by
    unfold solveQuestion solveQuestionD
    refine solveTreeD_of_loop hl hD.1 hD.2 ?_
    intro Q'' h'' hlt
    refine solveTreeD_ok _ _ h'' ?_
    have := firsts_le (Q := Q)
    rw [merged_ncols h] at hlt
    omega
  refine ⟨_, h1, ?_⟩
  rw [h2, List.filter_map, merged_tot]
  congr 2
  apply List.filter_congr
  intro y hy
  simp only [Function.comp, binz_sum (h3 y hy)]

end TDS
