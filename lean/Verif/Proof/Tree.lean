import Verif.Proof.Loop

/-! `binarize` and the search tree. -/

namespace TDS

/-- Blocks of widths `W`, the i-th starting with `y i` ones, the rest zeros. -/
def binz : Vec → Vec → Vec
  | w :: W, a :: y => List.replicate a.toNat 1 ++ List.replicate (w - a).toNat 0 ++ binz W y
  | _, _ => []

theorem binz_cons (w a : Int) (W y : Vec) : binz (w :: W) (a :: y) =
    List.replicate a.toNat 1 ++ List.replicate (w - a).toNat 0 ++ binz W y := rfl

/-- `0 ≤ y ≤ W` entrywise. -/
abbrev Within (y W : Vec) : Prop := List.Forall₂ (fun a b => 0 ≤ a ∧ a ≤ b) y W

theorem binz_length {y W : Vec} (h : Within y W) : ((binz W y).length : Int) = W.sum := by
  induction h with
  | nil => rfl
  | cons h1 _ ih =>
    rw [binz_cons]
    simp only [List.length_append, List.length_replicate, List.sum_cons]
    push_cast
    omega

theorem binz_bin {y W : Vec} (h : Within y W) : Bin (binz W y) := by
  induction h with
  | nil => exact Bin.nil
  | cons h1 _ ih =>
    rw [binz_cons]
    intro a ha
    rcases List.mem_append.1 ha with ha | ha
    · rcases List.mem_append.1 ha with ha | ha
      · right; exact (List.mem_replicate.1 ha).2
      · left; exact (List.mem_replicate.1 ha).2
    · exact ih a ha

theorem sum_replicate_int (n : Nat) (a : Int) : (List.replicate n a).sum = n * a := by
  induction n with
  | zero => simp
  | succ n ih => rw [List.replicate_succ, List.sum_cons, ih]; push_cast; ring

theorem binz_injective {y y' W : Vec} (h : Within y W) (h' : Within y' W)
    (he : binz W y = binz W y') : y = y' := by
  induction h generalizing y' with
  | nil => cases h'; rfl
  | @cons a w y W h1 _ ih =>
    cases h' with
    | @cons a' _ y' _ h1' h2' =>
      rw [binz_cons, binz_cons] at he
      have hl : (List.replicate a.toNat (1 : Int) ++ List.replicate (w - a).toNat 0).length =
          (List.replicate a'.toNat (1 : Int) ++ List.replicate (w - a').toNat 0).length := by
        simp only [List.length_append, List.length_replicate]; omega
      obtain ⟨e1, e2⟩ := List.append_inj he hl
      have e3 := congrArg List.sum e1
      simp only [List.sum_append, sum_replicate_int] at e3
      rw [ih h2' e2]
      congr 1
      omega

theorem setOnes_zeros (pre : Vec) (c n : Nat) (h : c ≤ n) :
    Answer.setOnes (pre ++ List.replicate n 0) pre.length c =
      pre ++ List.replicate c 1 ++ List.replicate (n - c) 0 := by
  unfold Answer.setOnes
  rw [List.take_left, List.length_append, List.length_replicate, Nat.add_sub_cancel_left,
    Nat.min_eq_left h, List.drop_append]
  simp

theorem binarizeLoop_eq {y W : Vec} (h : Within y W) : ∀ (pre : Vec) (n : Nat), (n : Int) = W.sum →
    Answer.binarizeLoop (pre ++ List.replicate n 0) pre.length (y.zip W) = pre ++ binz W y := by
  induction h with
  | nil =>
    intro pre n hn
    have : n = 0 := by simpa using hn
    subst this
    simp [Answer.binarizeLoop, binz]
  | @cons a w y W h1 h2 ih =>
    intro pre n hn
    have hWs : 0 ≤ W.sum := by rw [← binz_length h2]; omega
    simp only [List.sum_cons] at hn
    rw [List.zip_cons_cons, Answer.binarizeLoop, setOnes_zeros _ _ _ (by omega)]
    have e : pre ++ List.replicate a.toNat 1 ++ List.replicate (n - a.toNat) (0 : Int) =
        (pre ++ (List.replicate a.toNat 1 ++ List.replicate (w - a).toNat 0)) ++
          List.replicate (n - w.toNat) 0 := by
      have : n - a.toNat = (w - a).toNat + (n - w.toNat) := by omega
      rw [this, List.replicate_add]
      simp
    have el : pre.length + w.toNat =
        (pre ++ (List.replicate a.toNat (1 : Int) ++ List.replicate (w - a).toNat 0)).length := by
      simp only [List.length_append, List.length_replicate]; omega
    rw [e, el, ih _ _ (by omega), binz_cons]
    simp

theorem binarize_eq {W : Vec} {a : Answer} (h : Within a.v W) (hl : Lay W a.loc a.len) :
    a.binarize = .ok (binz W a.v) := by
  unfold Answer.binarize
  have h1 : a.v.all (· != UNKNOWN) = true := by
    rw [List.all_eq_true]
    intro x hx
    have := forall₂_nonneg h x hx
    simp only [bne_iff_ne, UNKNOWN]; omega
  have h2 : (a.v.zip W).all (fun p => decide (p.1 ≤ p.2)) = true := by
    rw [List.all_eq_true]
    intro p hp
    obtain ⟨i, hi, rfl⟩ := List.getElem_of_mem hp
    have h := (List.forall₂_iff_get.1 h)
    simp only [List.length_zip] at hi
    have := h.2 i (by omega) (by omega)
    simp only [List.getElem_zip, decide_eq_true_eq]
    exact this.2
  rw [h1, hl.quota]
  simp only [pyAssert_true, ok_bind, h2]
  have hs := binz_length h
  rw [hl.sum] at hs
  have := binarizeLoop_eq h [] a.len.toNat (by rw [hl.sum]; omega)
  simpa using this

/-! ### the tree -/

/-- Result of the search below a question. -/
def TreeOK (W : Vec) (Q : Question) (r : Res (List Vec)) : Prop :=
  ∃ ys : List Vec, r = .ok (ys.map (binz W)) ∧ ys.Nodup ∧
    (∀ y ∈ ys, SubY Q y ∧ Within y W) ∧ (∀ y, SolY W Q y → y ∈ ys)

theorem unknown_iff (a : Answer) : a.unknown = true ↔ 0 < unk a.v := by
  unfold Answer.unknown unk
  rw [List.countP_pos_iff, List.any_eq_true]

theorem within_of_final {W : Vec} {Q : Question} (h : Inv W Q) (hc : checkAfter Q = .ok Q)
    (h0 : ncols Q.A = 0) : Within Q.ans.v W := by
  have hle : List.Forall₂ (· ≤ ·) Q.ans.v W := by
    rcases checkAfter_cases h with h1 | h1
    · exact h1.2.2.2
    · rw [hc] at h1; cases h1.1
  have hu : unk Q.ans.v = 0 := by rw [h.unk]; exact h0
  refine Bounds.forall₂_of_getD 0 h.vlen ?_
  intro j hj
  have h1 := Bounds.getD_of_forall₂ 0 hle hj
  refine ⟨?_, h1⟩
  have hm : Q.ans.v.getD j 0 ∈ Q.ans.v := by
    rw [List.getD_eq_getElem _ _ hj]; exact List.getElem_mem _
  rcases h.vnn _ hm with h2 | h2
  · exfalso
    unfold unk at hu
    rw [List.countP_eq_zero] at hu
    exact hu _ hm (by rw [h2]; rfl)
  · exact h2

theorem visit_of_loop {W : Vec} {Q Q1 : Question}
    (hl : LoopOK W Q1 (reduceLoop (reduceFuel Q) Q)) :
    (visit Q = .ok ([], []) ∧ ∀ y, ¬ SolY W Q1 y) ∨
    (∃ Q', StepOK W Q1 (.ok Q') ∧ ncols Q'.A = 0 ∧ Within Q'.ans.v W ∧
      visit Q = .ok ([binz W Q'.ans.v], [])) ∨
    (∃ Q' j, StepOK W Q1 (.ok Q') ∧ j < ncols Q'.A ∧
      visit Q = .ok ([], (forkVals Q' j).map (fun q => asg Q' [j] (fun _ => q)))) := by
  unfold visit
  obtain ⟨hs, hf⟩ := hl
  match hr : reduceLoop (reduceFuel Q) Q, hs, hf with
  | .error .noSolution, hs, _ => exact Or.inl ⟨rfl, hs⟩
  | .ok Q', hs, hf =>
    have hc := (hf Q' rfl).2
    have hi := hs.ok.1
    right
    simp only [ok_bind]
    by_cases hu : Q'.ans.unknown = true
    · right
      have h0 : 0 < ncols Q'.A := by rw [← hi.unk]; exact (unknown_iff _).1 hu
      obtain ⟨j, hj, he⟩ := forkEnum_eq hi hc h0
      refine ⟨Q', j, hs, hj, ?_⟩
      rw [if_pos hu, he]
      rfl
    · left
      have h0 : ncols Q'.A = 0 := by
        rw [← hi.unk]
        by_contra hne
        exact hu ((unknown_iff _).2 (by omega))
      have hw := within_of_final hi hc h0
      refine ⟨Q', hs, h0, hw, ?_⟩
      rw [if_neg hu, binarize_eq hw hi.lay]
      rfl

theorem subY_of_final {W : Vec} {Q : Question} (h : Inv W Q) (h0 : ncols Q.A = 0) :
    SubY Q Q.ans.v := by
  refine ⟨[], ⟨by rw [h0]; rfl, ?_, ?_⟩, (fill_of_unk_zero (by rw [h.unk]; exact h0)).symm⟩
  · intro p hp
    rw [dot_nil_right]
    exact (h.sys.range _ (List.of_mem_zip hp).2).1
  · have := h.blen
    rw [h0] at this
    rw [List.eq_nil_of_length_eq_zero this]
    exact List.Forall₂.nil

theorem solY_of_final {W : Vec} {Q : Question} (h : Inv W Q) (h0 : ncols Q.A = 0) {y : Vec}
    (hy : SolY W Q y) : y = Q.ans.v := by
  obtain ⟨x, -, rfl, -⟩ := hy
  exact fill_of_unk_zero (by rw [h.unk]; exact h0)

theorem children_ok {W : Vec} {Q : Question} {j n : Nat} (hspec : ForkSpec W Q j (forkVals Q j))
    (hinv : Inv W Q) (hj : j < ncols Q.A)
    (ih : ∀ q ∈ forkVals Q j, TreeOK W (asg Q [j] (fun _ => q))
      (solveTree n (asg Q [j] (fun _ => q)))) :
    ∀ l : List Int, l.Nodup → (∀ q ∈ l, q ∈ forkVals Q j) →
    ∃ (rs : List (List Vec)) (ys : List Vec), (l.map (fun q => asg Q [j] (fun _ => q))).mapM (solveTree n) = .ok rs ∧
      rs.flatten = ys.map (binz W) ∧ ys.Nodup ∧
      (∀ y ∈ ys, Within y W ∧ ∃ x, SubS Q x ∧ y = fill Q.ans.v x ∧ x.getD j 0 ∈ l) ∧
      (∀ q ∈ l, ∀ y, SolY W (asg Q [j] (fun _ => q)) y → y ∈ ys) := by
  intro l
  induction l with
  | nil => intro _ _; exact ⟨[], [], rfl, rfl, List.nodup_nil, by simp, by simp⟩
  | cons q l ihl =>
    intro hnd hl
    rw [List.nodup_cons] at hnd
    obtain ⟨rs, ys, h1, h2, h3, h4, h5⟩ := ihl hnd.2 (fun q hq => hl q (by simp [hq]))
    obtain ⟨zs, g1, g2, g3, g4⟩ := ih q (hl q (by simp))
    have hz : ∀ y ∈ zs, ∃ x, SubS Q x ∧ y = fill Q.ans.v x ∧ x.getD j 0 = q :=
      fun y hy => hspec.subY q (hl q (by simp)) y (g3 y hy).1
    refine ⟨zs.map (binz W) :: rs, zs ++ ys, ?_, ?_, ?_, ?_, ?_⟩
    · rw [List.map_cons, List.mapM_cons, g1, h1]; rfl
    · rw [List.flatten_cons, h2, List.map_append]
    · rw [List.nodup_append]
      refine ⟨g2, h3, ?_⟩
      intro a ha b hb hab
      subst hab
      obtain ⟨x, hx, hax, hxq⟩ := hz a ha
      obtain ⟨x', hx', hax', hxq'⟩ := (h4 a hb).2
      have : x = x' := fill_injective (v := Q.ans.v) (by rw [hx.len, hinv.unk])
        (by rw [hx'.len, hinv.unk]) (by rw [← hax, ← hax'])
      subst this
      rw [hxq] at hxq'
      exact hnd.1 hxq'
    · intro y hy
      rcases List.mem_append.1 hy with hy | hy
      · obtain ⟨x, hx, hax, hxq⟩ := hz y hy
        exact ⟨(g3 y hy).2, x, hx, hax, by rw [hxq]; simp⟩
      · obtain ⟨hw, x, hx, hax, hxq⟩ := h4 y hy
        exact ⟨hw, x, hx, hax, List.mem_cons_of_mem _ hxq⟩
    · intro q' hq' y hy
      rcases List.mem_cons.1 hq' with rfl | hq'
      · exact List.mem_append_left _ (g4 y hy)
      · exact List.mem_append_right _ (h5 q' hq' y hy)

theorem solveTree_of_loop {W : Vec} {n : Nat} {Q Q1 : Question}
    (hl : LoopOK W Q1 (reduceLoop (reduceFuel Q) Q))
    (ih : ∀ Q'', Inv W Q'' → ncols Q''.A + 1 ≤ ncols Q1.A →
      TreeOK W Q'' (solveTree n Q'')) :
    TreeOK W Q1 (solveTree (n + 1) Q) := by
  rw [solveTree]
  rcases visit_of_loop hl with ⟨hv, hno⟩ | ⟨Q', hs, h0, hw, hv⟩ | ⟨Q', j, hs, hj, hv⟩
  · rw [hv]
    refine ⟨[], rfl, List.nodup_nil, by simp, ?_⟩
    intro y hy; exact absurd hy (hno y)
  · rw [hv]
    obtain ⟨hi, -, hfw, hbw⟩ := hs.ok
    refine ⟨[Q'.ans.v], rfl, List.nodup_singleton _, ?_, ?_⟩
    · intro y hy
      rw [List.mem_singleton] at hy; subst hy
      exact ⟨hbw _ (subY_of_final hi h0), hw⟩
    · intro y hy
      rw [List.mem_singleton]
      exact solY_of_final hi h0 (hfw y hy)
  · rw [hv]
    obtain ⟨hi, hle, hfw, hbw⟩ := hs.ok
    have hspec := fork_spec hi hj
    have hrev : ((forkVals Q' j).map (fun q => asg Q' [j] (fun _ => q))).reverse =
        (forkVals Q' j).reverse.map (fun q => asg Q' [j] (fun _ => q)) := List.map_reverse.symm
    simp only [ok_bind]
    rw [hrev]
    have hnd : (forkVals Q' j).Nodup := List.Pairwise.imp (fun h => Int.ne_of_lt h) hspec.inc
    obtain ⟨rs, ys, h1, h2, h3, h4, h5⟩ := children_ok (n := n) hspec hi hj (by
      intro q hq
      have := hspec.inv q hq
      exact ih _ this.1 (by omega)) (forkVals Q' j).reverse
      (List.nodup_reverse.2 hnd) (by intro q hq; exact List.mem_reverse.1 hq)
    rw [h1]
    simp only [ok_bind]
    refine ⟨ys, by rw [h2]; rfl, h3, ?_, ?_⟩
    · intro y hy
      obtain ⟨hw, x, hx, hax, -⟩ := h4 y hy
      exact ⟨hbw y ⟨x, hx, hax⟩, hw⟩
    · intro y hy
      obtain ⟨q, hq, hyq⟩ := hspec.solY y (hfw y hy)
      exact h5 q (List.mem_reverse.2 hq) y hyq

theorem solveTree_ok {W : Vec} (n : Nat) : ∀ Q, Inv W Q → ncols Q.A + 1 ≤ n →
    TreeOK W Q (solveTree n Q) := by
  induction n with
  | zero => intro Q _ hn; omega
  | succ n ih =>
    intro Q h hn
    exact solveTree_of_loop (reduceLoop_ok _ h (by unfold reduceFuel; omega))
      (fun Q'' h'' hlt => ih Q'' h'' (by omega))

/-! ### the explicit stack -/

theorem solveLoop_of_tree (n : Nat) : ∀ Q r, solveTree n Q = .ok r →
    ∃ c, ∀ m stack rest, solveLoop m stack = .ok rest →
      solveLoop (m + c) (Q :: stack) = .ok (r ++ rest) := by
  induction n with
  | zero => intro Q r h; exact absurd h (by simp [solveTree])
  | succ n ih =>
    intro Q r h
    rw [solveTree] at h
    obtain ⟨⟨outs, qs⟩, hv, h⟩ := bind_eq_ok.1 h
    obtain ⟨rs, hrs, h⟩ := bind_eq_ok.1 h
    have key : ∀ (l : List Question) (rs : List (List Vec)), l.mapM (solveTree n) = .ok rs →
        ∃ c, ∀ m stack rest, solveLoop m stack = .ok rest →
          solveLoop (m + c) (l ++ stack) = .ok (rs.flatten ++ rest) := by
      intro l
      induction l with
      | nil =>
        intro rs hrs
        cases hrs
        exact ⟨0, fun m stack rest hr => hr⟩
      | cons q l ihl =>
        intro rs hrs
        rw [List.mapM_cons] at hrs
        obtain ⟨r1, h1, hrs⟩ := bind_eq_ok.1 hrs
        obtain ⟨rs', h2, hrs⟩ := bind_eq_ok.1 hrs
        cases hrs
        obtain ⟨c1, hc1⟩ := ih q r1 h1
        obtain ⟨c2, hc2⟩ := ihl rs' h2
        refine ⟨c2 + c1, fun m stack rest hr => ?_⟩
        rw [← Nat.add_assoc, List.cons_append, hc1 _ _ _ (hc2 _ _ _ hr), List.flatten_cons,
          List.append_assoc]
    obtain ⟨c, hc⟩ := key _ _ hrs
    refine ⟨c + 1, fun m stack rest hr => ?_⟩
    rw [← Nat.add_assoc, solveLoop, hv, ok_bind]
    simp only
    rw [hc _ _ _ hr, ok_bind]
    cases h
    rw [List.append_assoc]

/-- The stack discipline of the program and the recursion give the same list. -/
theorem solveLoop_eq_tree {n : Nat} {Q : Question} {r : List Vec} (h : solveTree n Q = .ok r) :
    ∃ N, ∀ m, N ≤ m → solveLoop m [Q] = .ok r := by
  obtain ⟨c, hc⟩ := solveLoop_of_tree n Q r h
  refine ⟨c, fun m hm => ?_⟩
  have := hc (m - c) [] [] (by cases (m - c) <;> rfl)
  rwa [Nat.sub_add_cancel hm, List.append_nil] at this

end TDS
