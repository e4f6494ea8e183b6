import Verif.Model.Width
import Verif.Proof.Cost
import Verif.Proof.Levels

/-! No number the search stores leaves the range of an `int8`, so the format does not matter. -/

namespace TDS

/-- The ten rounding functions of numpy, as the model has them. -/
def int8Width : Width := fun _ => i8

/-! ### with `int8` everywhere it is the model -/

theorem vkluW_int8 (m : Mat) : vkluW int8Width m = vklu m := rfl

theorem fromMatrixW_int8 (m : Mat) : fromMatrixW int8Width m = fromMatrix m := rfl

theorem reducePassW_int8 (Q : Question) : reducePassW int8Width Q = reducePass Q := rfl

theorem forkEnumW_int8 (Q : Question) : forkEnumW int8Width Q = forkEnum Q := rfl

theorem reduceLoopW_int8 (n : Nat) : ∀ Q, reduceLoopW int8Width n Q = reduceLoop n Q := by
  induction n with
  | zero => intro Q; rfl
  | succ n ih =>
    intro Q
    rw [reduceLoopW, reduceLoop, reducePassW_int8]
    simp only [ih]

theorem visitW_int8 (Q : Question) : visitW int8Width Q = visit Q := by
  unfold visitW visit
  rw [reduceLoopW_int8]
  rfl

theorem solveTreeW_int8 (n : Nat) : solveTreeW int8Width n = solveTree n := by
  induction n with
  | zero => rfl
  | succ n ih =>
    funext Q
    rw [solveTreeW, solveTree, visitW_int8, ih]

theorem advanceW_int8 : advanceW int8Width = advance := by
  funext m
  unfold advanceW advance solveQuestionW solveQuestion
  simp only [fromMatrixW_int8, solveTreeW_int8]
  rfl

theorem solveLevelsW_int8 (n : Nat) : ∀ lst, solveLevelsW int8Width n lst = solveLevels n lst := by
  induction n with
  | zero => intro lst; cases lst <;> rfl
  | succ n ih =>
    intro lst
    cases lst with
    | nil => rfl
    | cons m t =>
      rw [solveLevelsW, solveLevels]
      · simp only [advanceW_int8, ih]
      · simp
      · simp

theorem solveW_int8 (m : Mat) : solveW int8Width m = solve m := by
  unfold solveW solve
  simp only [advanceW_int8, solveLevelsW_int8]

/-! ### the steps -/

/-- Storing does not change a number an `int8` can hold. -/
def Keeps8 (w : Width) : Prop := ∀ s x, -128 ≤ x → x ≤ 127 → w s x = x

theorem Keeps8.eq {w : Width} (h : Keeps8 w) {s : Site} {x : Int} (h1 : -128 ≤ x) (h2 : x ≤ 127) :
    w s x = i8 x := by
  rw [h s x h1 h2, i8_of_range h1 h2]

/-- Merging columns agrees when no merged bound is too large. -/
theorem reduceColBodyW_eq {w : Width} (hw : Keeps8 w) {Q : Question}
    (h : ∀ enc, Unique.encode Q.A = .ok enc → ¬ ncols Q.A < 2 → ∀ g ∈ groups enc,
      -128 ≤ (g.2.map (fun j => Q.bounds.getD j 0)).sum ∧
        (g.2.map (fun j => Q.bounds.getD j 0)).sum ≤ 127) :
    reduceColBodyW w Q = reduceColBody Q := by
  unfold reduceColBodyW reduceColBody
  split
  · rfl
  · next h2 =>
    cases he : Unique.encode Q.A with
    | error e => rfl
    | ok enc =>
      simp only [ok_bind]
      have e : (groups enc).map
          (fun g => w .merged ((g.2.map (fun j => Q.bounds.getD j 0)).sum)) =
          (groups enc).map (fun g => i8 ((g.2.map (fun j => Q.bounds.getD j 0)).sum)) := by
        apply List.map_congr_left
        intro g hg
        have := h enc he h2 g hg
        exact hw.eq this.1 this.2
      rw [e]

theorem reduceColW_inv {w : Width} (hw : Keeps8 w) {W : Vec} {Q : Question} (h : Inv W Q) :
    reduceColW w Q = reduceCol Q := by
  unfold reduceColW reduceCol
  rw [reduceColBodyW_eq hw]
  intro enc he h2 g hg
  have h64 : Q.A.length ≤ 64 := by
    rcases h.rows with h1 | h1
    · exact h1
    · omega
  have hne : Q.A.length ≠ 0 := fun h0 => h.sys.ne (List.eq_nil_of_length_eq_zero h0)
  unfold Unique.encode at he
  rw [if_neg hne] at he
  cases he
  rw [groups_nodup (encode_nodup h h64)] at hg
  obtain ⟨p, hp, rfl⟩ := List.mem_map.1 hg
  have hlt := (List.mem_zipIdx hp).2.1
  simp only [List.length_map, List.length_range] at hlt
  have hr := h.brange (Q.bounds.getD p.2 0) (by
    rw [List.getD_eq_getElem _ _ (by rw [h.blen]; omega)]; exact List.getElem_mem _)
  simp only [List.map_cons, List.map_nil, List.sum_cons, List.sum_nil, add_zero]
  omega

theorem reduceColW_pre {w : Width} (hw : Keeps8 w) {Q : Question} (h : Pre Q) :
    reduceColW w Q = reduceCol Q := by
  unfold reduceColW reduceCol
  rw [reduceColBodyW_eq hw]
  intro enc he h2 g hg
  have hne : Q.A.length ≠ 0 := fun h0 => h.sys.ne (List.eq_nil_of_length_eq_zero h0)
  have henc : Unique.encode Q.A = .ok (codes Q) := by
    unfold Unique.encode; rw [if_neg hne]; rfl
  rw [henc] at he
  cases he
  have h1 : g.2.map (fun j => Q.bounds.getD j 0) = List.replicate g.2.length 1 := by
    rw [List.eq_replicate_iff]
    refine ⟨by simp, ?_⟩
    intro a ha
    obtain ⟨j, hj, rfl⟩ := List.mem_map.1 ha
    have := (((grps_ok Q).locs g hg j).1 hj).1
    rw [codes_length] at this
    rw [h.bounds, List.getD_eq_getElem _ _ (by simpa using this)]
    simp
  have := grp_le (Q := Q) hg
  have := h.cols
  rw [h1, sum_replicate_int, mul_one]
  omega

theorem decodeW_eq {w : Width} (hw : Keeps8 w) {out : List Gauss.Entry}
    (h : ∀ e ∈ out, -128 ≤ e.v ∧ e.v ≤ 127) : Gauss.decodeW w out = Gauss.decode out := by
  unfold Gauss.decodeW Gauss.decode
  have e : out.map (fun e => w .decoded e.v) = out.map (fun e => i8 e.v) := by
    apply List.map_congr_left
    intro a ha
    exact hw.eq (h a ha).1 (h a ha).2
  rw [e]
  cases out <;> rfl

theorem elimW_eq {w : Width} (hw : Keeps8 w) {C : Nat} {A : Mat} {b : Vec} (h : Gauss.Sys C A b)
    (hC : 0 < C) (hC63 : C ≤ 63) : Gauss.elimW w A b = Gauss.elim A b := by
  unfold Gauss.elimW Gauss.elim
  rw [Gauss.encode_ok hC h.ne h.len h.rect, Gauss.entryOf_zipIdx]
  simp only [ok_bind]
  set hd := (A.zip b).zipIdx.map Gauss.entryOf with hhd
  have hrange : Gauss.Ranged C (Gauss.removeZeroKeys hd) := by
    intro e he
    rw [Gauss.mem_removeZeroKeys] at he
    obtain ⟨p, hp, rfl⟩ := List.mem_map.1 he.1
    have hz := Gauss.mem_of_mem_zipIdx hp
    have h1 := (List.of_mem_zip hz).1
    have h3 := Gauss.entryOf_row (p := p) hC hC63 (h.rect _ h1) (h.bin _ h1)
    have h4 := h.range _ (List.of_mem_zip hz).2
    exact ⟨he.2, h3.2.1, h4.1, h4.2⟩
  obtain ⟨out, h1, h2, -⟩ := Gauss.elimList_spec hd
  rw [h1]
  simp only [ok_bind]
  refine decodeW_eq hw ?_
  intro e he
  have := h2.ranged hrange e he
  omega

theorem eliminateW_inv {w : Width} (hw : Keeps8 w) {W : Vec} {Q : Question} (h : Inv W Q) :
    eliminateW w Q = eliminate Q := by
  unfold eliminateW eliminate eliminateBodyW eliminateBody
  split
  · rfl
  · rw [elimW_eq hw h.sys (by omega) h.cols]

theorem dot_map_map' {α : Type} (f g : α → Int) (l : List α) :
    dot (l.map f) (l.map g) = (l.map (fun a => f a * g a)).sum := by
  induction l with
  | nil => rfl
  | cons a l ih => rw [List.map_cons, List.map_cons, List.map_cons, List.sum_cons, ← ih]; rfl

theorem mapM_congr' {α β : Type} {f g : α → Res β} {l : List α} (h : ∀ a ∈ l, f a = g a) :
    l.mapM f = l.mapM g := by
  induction l with
  | nil => rfl
  | cons a l ih =>
    rw [List.mapM_cons, List.mapM_cons, h a (by simp), ih (fun b hb => h b (by simp [hb]))]

theorem only1W_inv {w : Width} (hw : Keeps8 w) {W : Vec} {Q : Question} (h : Inv W Q) :
    only1W w Q = only1 Q := by
  unfold only1W only1
  have hr := Bounds.oneElementRowLocs_ok Q.A
  set rcs := Bounds.oneElementRowLocs Q.A with hrcs
  have key : only1WithW w rcs Q = only1With rcs Q := by
    unfold only1WithW only1With
    by_cases hul : (Q.ans.unknownLoc.length == Q.bounds.length) = true
    · simp only [hul, pyAssert_true, ok_bind]
      split
      · rfl
      split
      · rfl
      split
      · rfl
      next c2 =>
      have hb0 : ∀ rc ∈ rcs, 0 ≤ Q.b.getD rc.1 0 := by
        intro rc hrc
        have hlt := (hr.row rc hrc).1
        have hltb : rc.1 < Q.b.length := by rw [h.sys.len]; exact hlt
        rw [List.getD_eq_getElem _ _ hltb]
        exact (h.sys.range _ (List.getElem_mem _)).1
      have hq := h.quota127
      have hupd : ∀ r ∈ Q.A, 0 ≤ dot ((rcs.map Prod.snd).map (fun c => r.getD c 0))
            (rcs.map (fun rc => Q.b.getD rc.1 0)) ∧
          dot ((rcs.map Prod.snd).map (fun c => r.getD c 0))
            (rcs.map (fun rc => Q.b.getD rc.1 0)) ≤
          (rcs.map (fun rc => Q.b.getD rc.1 0)).sum := by
        intro r hr'
        rw [List.map_map, dot_map_map']
        constructor
        · apply sum_nonneg'
          intro c hc
          have := hb0 c hc
          rcases (h.sys.bin r hr').getD c.2 with h3 | h3 <;> simp only [Function.comp] <;>
            rw [h3] <;> omega
        · have : 0 ≤ (rcs.map (fun c => Q.b.getD c.1 0 -
              ((fun c => r.getD c 0) ∘ Prod.snd) c * Q.b.getD c.1 0)).sum := by
            apply sum_nonneg'
            intro c hc
            have := hb0 c hc
            rcases (h.sys.bin r hr').getD c.2 with h3 | h3 <;> simp only [Function.comp] <;>
              rw [h3] <;> omega
          rw [sum_map_sub'] at this
          omega
      have e1 : Q.A.map (fun row => w .update (dot ((rcs.map Prod.snd).map (fun c => row.getD c 0))
            (rcs.map (fun rc => Q.b.getD rc.1 0)))) =
          Q.A.map (fun row => i8 (dot ((rcs.map Prod.snd).map (fun c => row.getD c 0))
            (rcs.map (fun rc => Q.b.getD rc.1 0)))) := by
        apply List.map_congr_left
        intro r hr'
        have := hupd r hr'
        exact hw.eq (by omega) (by omega)
      have e2 : List.zipWith (fun x y => w .reduced (x - y)) Q.b
            (Q.A.map (fun row => i8 (dot ((rcs.map Prod.snd).map (fun c => row.getD c 0))
              (rcs.map (fun rc => Q.b.getD rc.1 0))))) =
          List.zipWith (fun x y => i8 (x - y)) Q.b
            (Q.A.map (fun row => i8 (dot ((rcs.map Prod.snd).map (fun c => row.getD c 0))
              (rcs.map (fun rc => Q.b.getD rc.1 0))))) := by
        apply List.ext_getElem
        · simp
        · intro i h1 h2
          simp only [List.getElem_zipWith, List.getElem_map]
          simp only [List.length_zipWith, List.length_map] at h1
          have g1 := hupd (Q.A[i]'(by omega)) (List.getElem_mem _)
          have g2 := h.sys.range (Q.b[i]'(by omega)) (List.getElem_mem _)
          rw [i8_of_range (x := dot _ _) (by omega) (by omega)]
          exact hw.eq (by omega) (by omega)
      rw [e1, e2]
    · have : (Q.ans.unknownLoc.length == Q.bounds.length) = false := by simpa using hul
      simp only [this]
      rfl
  rw [key]

theorem zeroInB_inv {W : Vec} {Q Q' : Question} (h : Inv W Q) (hq : zeroInB Q = .ok Q') :
    Inv W Q' := by
  have := zeroInB_ok h
  rw [hq] at this
  exact this.ok.1

theorem passTailW {w : Width} (hw : Keeps8 w) {W : Vec} {Q : Question} (h : Inv W Q) :
    (do let Q ← eliminateW w Q
        let Q ← zeroInB Q
        only1W w Q) = (do
        let Q ← eliminate Q
        let Q ← zeroInB Q
        only1 Q) := by
  rw [eliminateW_inv hw h]
  cases h2 : eliminate Q with
  | error e => rfl
  | ok Q2 =>
    have i2 : Inv W Q2 := by have := eliminate_ok h; rw [h2] at this; exact this.ok.1
    simp only [ok_bind]
    cases h3 : zeroInB Q2 with
    | error e => rfl
    | ok Q3 =>
      simp only [ok_bind]
      exact only1W_inv hw (zeroInB_inv i2 h3)

theorem reducePassW_inv {w : Width} (hw : Keeps8 w) {W : Vec} {Q : Question} (h : Inv W Q) :
    reducePassW w Q = reducePass Q := by
  unfold reducePassW reducePass
  rw [reduceColW_inv hw h]
  cases h1 : reduceCol Q with
  | error e => rfl
  | ok Q1 =>
    have i1 : Inv W Q1 := by rw [reduceCol_eq h h1]; exact h
    simp only [ok_bind]
    exact passTailW hw i1

theorem reducePassW_pre {w : Width} (hw : Keeps8 w) {Q : Question} (h : Pre Q) :
    reducePassW w Q = reducePass Q := by
  unfold reducePassW reducePass
  rw [reduceColW_pre hw h]
  cases h1 : reduceCol Q with
  | error e => rfl
  | ok Q1 =>
    have i1 : Inv (widths Q) Q1 := by
      unfold reduceCol at h1
      rw [reduceColBody_pre h, ok_bind] at h1
      rw [checkAfter_eq h1]
      exact merged_inv h
    simp only [ok_bind]
    exact passTailW hw i1

theorem reduceLoopW_inv {w : Width} (hw : Keeps8 w) {W : Vec} (n : Nat) : ∀ {Q : Question},
    Inv W Q → reduceLoopW w n Q = reduceLoop n Q := by
  induction n with
  | zero => intro Q _; rfl
  | succ n ih =>
    intro Q h
    rw [reduceLoopW, reduceLoop, reducePassW_inv hw h]
    cases h1 : reducePass Q with
    | error e => rfl
    | ok Q1 =>
      have i1 : Inv W Q1 := by have := reducePass_ok h; rw [h1] at this; exact this.ok.1
      simp only [ok_bind, ih i1]

theorem reduceLoopW_pre {w : Width} (hw : Keeps8 w) (n : Nat) {Q : Question} (h : Pre Q) :
    reduceLoopW w n Q = reduceLoop n Q := by
  cases n with
  | zero => rfl
  | succ n =>
    rw [reduceLoopW, reduceLoop, reducePassW_pre hw h]
    cases h1 : reducePass Q with
    | error e => rfl
    | ok Q1 =>
      have i1 : Inv (widths Q) Q1 := by
        rw [reducePass_pre h] at h1
        have := reducePass_ok (merged_inv h); rw [h1] at this; exact this.ok.1
      simp only [ok_bind, reduceLoopW_inv hw n i1]

theorem forkEnumW_inv {w : Width} (hw : Keeps8 w) {W : Vec} {Q : Question} (h : Inv W Q) :
    forkEnumW w Q = forkEnum Q := by
  unfold forkEnumW forkEnum
  cases hc : checkAfter Q with
  | error e => rfl
  | ok Q0 =>
  obtain rfl := checkAfter_eq hc
  simp only [ok_bind]
  cases hu : pyAssert (decide (Q0.ans.unknownLoc.length > 0)) with
  | error e => rfl
  | ok _ =>
  simp only [ok_bind]
  cases hj : npArgmin Q0.bounds with
  | error e => rfl
  | ok j =>
  simp only [ok_bind]
  have hjlt : j < Q0.bounds.length := by
    by_cases hbne : Q0.bounds = []
    · rw [hbne] at hj; cases hj
    · obtain ⟨j', hj', hlt⟩ := npArgmin_ok hbne
      rw [hj] at hj'; cases hj'; exact hlt
  rw [enum_ok hjlt]
  simp only [ok_bind, Fork.popCol]
  have hbj := h.brange (Q0.bounds.getD j 0) (by
    rw [List.getD_eq_getElem _ _ hjlt]; exact List.getElem_mem _)
  refine congrArg (fun r : Res (List (Option Question)) =>
    r >>= fun outs => Except.ok (List.filterMap id outs)) ?_
  refine mapM_congr' ?_
  intro qr hqr
  obtain ⟨q, hq, rfl⟩ := List.mem_map.1 hqr
  rw [mem_pyRange] at hq
  have e : List.zipWith (fun b a => w .forked (b - a * q)) Q0.b (col Q0.A j) =
      List.zipWith (fun b a => i8 (b - a * q)) Q0.b (col Q0.A j) := by
    apply List.ext_getElem
    · simp
    · intro i h1 h2
      simp only [col, List.length_zipWith, List.length_map] at h1
      have g1 := h.sys.range (Q0.b[i]'(by omega)) (List.getElem_mem _)
      have g2 := (h.sys.bin (Q0.A[i]'(by omega)) (List.getElem_mem _)).getD j
      simp only [col, List.getElem_zipWith, List.getElem_map]
      rcases g2 with g2 | g2 <;> rw [g2] <;> apply hw.eq <;> omega
  simp only [e]
  rfl

theorem visitW_node {w : Width} (hw : Keeps8 w) {W : Vec} {Q : Question} (h : Node W Q) :
    visitW w Q = visit Q := by
  unfold visitW visit
  have hl : reduceLoopW w (reduceFuel Q) Q = reduceLoop (reduceFuel Q) Q := by
    rcases h with h | ⟨h, -⟩
    · exact reduceLoopW_inv hw _ h
    · exact reduceLoopW_pre hw _ h
  rw [hl]
  cases h1 : reduceLoop (reduceFuel Q) Q with
  | error e => rfl
  | ok Q1 =>
    have i1 : Inv W Q1 := by
      rcases h with h | ⟨h, rfl⟩
      · have := (reduceLoop_ok (reduceFuel Q) h (by unfold reduceFuel; omega)).1
        rw [h1] at this; exact this.ok.1
      · have := (reduceLoop_pre h (reduceFuel Q) (by unfold reduceFuel; omega)).1
        rw [h1] at this; exact this.ok.1
    simp only [ok_bind, forkEnumW_inv hw i1]
    rfl

/-! ### the search -/

theorem solveTreeW_node {w : Width} (hw : Keeps8 w) {W : Vec} (n : Nat) : ∀ {Q : Question},
    Node W Q → solveTreeW w n Q = solveTree n Q := by
  induction n with
  | zero => intro Q _; rfl
  | succ n ih =>
    intro Q h
    rw [solveTreeW, solveTree, visitW_node hw h]
    obtain ⟨outs, qs, hv, hq⟩ := node_visit h
    rw [hv]
    simp only [ok_bind]
    rw [mapM_congr' (f := solveTreeW w n) (g := solveTree n)]
    intro q hm
    rcases hq with rfl | ⟨p, -, -, hq⟩
    · simp at hm
    · exact ih (Or.inl (hq q (List.mem_reverse.1 hm)).1)

theorem fromMatrixW_eq {w : Width} (hw : Keeps8 w) {v : Nat} {k l u : Int} {m : Mat}
    (h : Spec.Part v m) (h2 : 2 ≤ m.length) (hv : v ≤ 127) (hp : Vals v k l u m) :
    fromMatrixW w m = fromMatrix m := by
  have hr0 : m.getD 0 [] ∈ m := by
    rw [List.getD_eq_getElem _ _ (by omega)]; exact List.getElem_mem _
  have hr1 : m.getD 1 [] ∈ m := by
    rw [List.getD_eq_getElem _ _ (by omega)]; exact List.getElem_mem _
  have hlb := bin_dot_le (h.bin _ hr0) (h.bin _ hr1)
  rw [h.rect _ hr0] at hlb
  have hvk : vkluW w m = vklu m := by
    unfold vkluW vklu
    rw [pyGet_of_lt (by omega), pyGet_of_lt (by omega)]
    simp only [ok_bind]
    rw [List.getD_eq_getElem _ _ (by omega), List.getD_eq_getElem _ _ (by omega)] at hlb
    rw [hw.eq (by omega) (by omega)]
  unfold fromMatrixW fromMatrix
  rw [hvk, vklu_eq h2, hp.hl, hp.hu]
  simp only [ok_bind]
  split
  · rfl
  next hC =>
  have hl0 := hp.l0
  have hl1 : l ≤ 127 := by rw [← hp.hl]; exact (i8_range _).2
  have hu0 := hp.u0
  have hu1 := hp.u127
  have hused : ∀ r ∈ m, 0 ≤ dot (r.take (m.length + 1)) (col m m.length ++ [0]) ∧
      dot (r.take (m.length + 1)) (col m m.length ++ [0]) ≤ 127 := by
    intro r hr
    have hb := bin_dot_le (Bin.take (h.bin r hr) (m.length + 1)) (knownOf_bin h)
    have htl : ((r.take (m.length + 1)).length : Int) ≤ 127 := by
      rw [List.length_take, h.rect r hr]; omega
    change 0 ≤ dot (r.take (m.length + 1)) (knownOf m) ∧
      dot (r.take (m.length + 1)) (knownOf m) ≤ 127
    omega
  have e1 : m.map (fun r => w .used (dot (r.take (m.length + 1)) (col m m.length ++ [0]))) =
      m.map (fun r => i8 (dot (r.take (m.length + 1)) (col m m.length ++ [0]))) := by
    apply List.map_congr_left
    intro r hr
    have := hused r hr
    exact hw.eq (by omega) (by omega)
  have e2 : List.zipWith (fun q x => w .rhs (q - x))
      ((col m m.length).map (fun e => if e ≠ 0 then i8 l else i8 u))
      (m.map (fun r => i8 (dot (r.take (m.length + 1)) (col m m.length ++ [0])))) =
    List.zipWith (fun q x => i8 (q - x))
      ((col m m.length).map (fun e => if e ≠ 0 then i8 l else i8 u))
      (m.map (fun r => i8 (dot (r.take (m.length + 1)) (col m m.length ++ [0])))) := by
    unfold col
    rw [List.map_map, List.zipWith_map, List.zipWith_self, List.zipWith_map, List.zipWith_self]
    apply List.map_congr_left
    intro r hr
    have := hused r hr
    unfold col at this
    rw [i8_of_range (x := l) (by omega) (by omega), i8_of_range (x := u) (by omega) (by omega),
      i8_of_range (x := dot _ _) (by omega) (by omega)]
    simp only [Function.comp]
    apply hw.eq <;> split <;> omega
  rw [hw.eq (s := .quotaL) (x := l) (by omega) (by omega),
    hw.eq (s := .quotaU) (x := u) (by omega) (by omega), e1, e2]

theorem advanceW_eq {w : Width} (hw : Keeps8 w) {v : Nat} {k l u : Int} {m : Mat}
    (h : Spec.Part v m) (h2 : 2 ≤ m.length) (hlt : m.length < v) (hv : v ≤ 66)
    (hp : Vals v k l u m) : advanceW w m = advance m := by
  unfold advanceW advance
  rw [fromMatrixW_eq hw h h2 (by omega) hp]
  have hf := fromMatrix_eq h h2 hlt
  rw [hf]
  cases hb : (questionOf m).b.any (fun x => decide (x < 0)) with
  | true => rfl
  | false =>
    have hq : solveQuestionW w (questionOf m) = solveQuestion (questionOf m) :=
      solveTreeW_node hw _ (W := widths (questionOf m))
        (Or.inr ⟨questionOf_pre h h2 hlt hv hb, rfl⟩)
    simp only [Bool.false_eq_true, if_false]
    rw [hq]

theorem solveLevelsW_eq {w : Width} (hw : Keeps8 w) {v : Nat} {k l u : Int} (hv : v ≤ 66)
    (n : Nat) : ∀ (R : Nat) (lst : List Mat), Level v R lst → 2 ≤ R → R ≤ v →
    (∀ m ∈ lst, Vals v k l u m) → solveLevelsW w n lst = solveLevels n lst := by
  induction n with
  | zero => intro R lst _ _ _ _; cases lst <;> rfl
  | succ n ih =>
    intro R lst h h2 hR hp
    cases lst with
    | nil => rfl
    | cons m0 t =>
      rw [solveLevelsW, solveLevels]
      · set lst := m0 :: t with hlst
        have hlt : ∀ m ∈ lst.filter (fun m => !solved m), m ∈ lst ∧ m.length < v := by
          intro m hm
          obtain ⟨hm, hs⟩ := List.mem_filter.1 hm
          obtain ⟨hpart, hl⟩ := h m hm
          have hne : m ≠ [] := by rintro rfl; simp at hl; omega
          unfold solved at hs
          rw [part_ncols hpart hne] at hs
          refine ⟨hm, ?_⟩
          have : m.length ≠ v := by simpa using hs
          omega
        have e1 : (lst.filter (fun m => !solved m)).mapM (advanceW w) =
            (lst.filter (fun m => !solved m)).mapM advance := by
          refine mapM_congr' ?_
          intro m hm
          obtain ⟨hm, hl⟩ := hlt m hm
          obtain ⟨hpart, hl'⟩ := h m hm
          exact advanceW_eq hw hpart (by omega) hl hv (hp m hm)
        have e2 : (lst.filter (fun m => !solved m)).mapM advance =
            .ok ((lst.filter (fun m => !solved m)).map adv) := mapM_ok (by
          intro m hm
          obtain ⟨hm, hl⟩ := hlt m hm
          obtain ⟨hpart, hl'⟩ := h m hm
          exact advance_eq hpart (by omega) hl hv)
        rw [e1, e2]
        simp only [ok_bind]
        by_cases hRv : R = v
        · have h3 : lst.filter (fun m => !solved m) = [] := by
            rw [List.eq_nil_iff_forall_not_mem]
            intro m hm
            obtain ⟨hm, hl⟩ := hlt m hm
            have := (h m hm).2
            omega
          rw [h3]
          have a1 : solveLevelsW w n ([] : List Mat) = .ok [] := by cases n <;> rfl
          have a2 : solveLevels n ([] : List Mat) = .ok [] := by cases n <;> rfl
          simp only [List.map_nil, List.flatten_nil, a1, a2]
        · have hsub : Level v R (lst.filter (fun m => !solved m)) := fun m hm => h m (hlt m hm).1
          have hn := hsub.next h2 (by omega) hv
          have e3 := ih (R + 1) _ hn (by omega) (by omega)
          unfold nextLevel at e3
          rw [e3]
          · intro m' hm'
            obtain ⟨m, hm, hm'⟩ := mem_nextLevel.1 hm'
            obtain ⟨hpart, hl⟩ := hsub m hm
            obtain ⟨x, rfl, -⟩ := (adv_ext hpart (by omega) (by omega) hv hm').ex
            exact vals_snoc (by omega) _ (hp m (hlt m hm).1)
      · simp
      · simp

theorem solveW_eq {w : Width} (hw : Keeps8 w) {v : Nat} {k l u : Int} {m : Mat}
    (h : Spec.Part v m) (h2 : 2 ≤ m.length) (hlt : m.length < v) (hv : v ≤ 66)
    (hp : Vals v k l u m) : solveW w m = solve m := by
  unfold solveW solve
  rw [advanceW_eq hw h h2 hlt hv hp, advance_eq h h2 hlt hv]
  simp only [ok_bind]
  have hl : Level v m.length [m] := by
    intro m' hm'; rw [List.mem_singleton.1 hm']; exact ⟨h, rfl⟩
  have hl' := hl.next h2 hlt hv
  have e : nextLevel [m] = adv m := by simp [nextLevel]
  rw [e] at hl'
  refine solveLevelsW_eq (k := k) (l := l) (u := u) hw hv _ (m.length + 1) _ hl' (by omega)
    (by omega) ?_
  intro m' hm'
  obtain ⟨x, rfl, -⟩ := (adv_ext h h2 hlt hv hm').ex
  exact vals_snoc h2 _ hp

end TDS
