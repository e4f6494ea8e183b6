import Verif.Proof.Groups

/-! The question after the first `reduce_col`. -/

namespace TDS

/-- A question as built by `from_matrix`: every column still unknown, bounds one, and the
all-ones equation present. -/
structure Pre (Q : Question) : Prop where
  sys : Gauss.Sys (ncols Q.A) Q.A Q.b
  bounds : Q.bounds = List.replicate (ncols Q.A) 1
  quota0 : 0 ≤ Q.quota
  quota127 : Q.quota ≤ 127
  cols : ncols Q.A ≤ 63
  rows : Q.A.length ≤ 64 ∨ ncols Q.A < 2
  ones : (List.replicate (ncols Q.A) 1, Q.quota) ∈ Q.A.zip Q.b
  ans : Q.ans = ⟨List.replicate (ncols Q.A) UNKNOWN,
    (List.range (ncols Q.A)).map (fun (i : Nat) => (i : Int)), ncols Q.A⟩

/-- Codes of the columns. -/
def codes (Q : Question) : List Int :=
  (List.range (ncols Q.A)).map (fun j => Unique.colKey (col Q.A j))

/-- Groups of equal columns. -/
def grps (Q : Question) : List (Int × List Nat) := groups (codes Q)

/-- First column of each group. -/
def firsts (Q : Question) : List Nat := (grps Q).map (fun g => g.2.headD 0)

/-- Bucket widths after merging. -/
def widths (Q : Question) : Vec :=
  npDiff ((firsts Q).map (fun (i : Nat) => (i : Int)) ++ [(ncols Q.A : Int)])

/-- The question after merging equal columns. -/
def merged (Q : Question) : Question :=
  { A := Q.A.map (fun r => (firsts Q).map (fun j => r.getD j 0))
    b := Q.b
    quota := Q.quota
    bounds := (grps Q).map (fun g => (g.2.length : Int))
    ans := ⟨List.replicate (firsts Q).length UNKNOWN,
      (firsts Q).map (fun (i : Nat) => (i : Int)), ncols Q.A⟩ }

theorem codes_length (Q : Question) : (codes Q).length = ncols Q.A := by simp [codes]

theorem grps_ok (Q : Question) : GroupsOK (codes Q) (grps Q) := groups_ok _

theorem firsts_length (Q : Question) : (firsts Q).length = (grps Q).length := by simp [firsts]

theorem codes_getD {Q : Question} {j : Nat} (hj : j < ncols Q.A) :
    (codes Q).getD j 0 = Unique.colKey (col Q.A j) := by
  unfold codes
  rw [List.getD_eq_getElem _ _ (by simpa using hj)]
  simp

theorem merged_ncols {Q : Question} (h : Pre Q) : ncols (merged Q).A = (firsts Q).length := by
  obtain ⟨r, A', e⟩ := List.exists_cons_of_ne_nil h.sys.ne
  unfold merged ncols
  simp [e]

theorem grp_le {Q : Question} {g : Int × List Nat} (hg : g ∈ grps Q) :
    g.2.length ≤ ncols Q.A := by
  have h := grps_ok Q
  have hs : (g.2).Subperm (List.range (ncols Q.A)) := by
    apply List.subperm_of_subset
    · exact List.Pairwise.imp (fun h => Nat.ne_of_lt h) (h.inc g hg)
    · intro j hj
      have := ((h.locs g hg j).1 hj).1
      rw [codes_length] at this
      simpa using this
  simpa using hs.length_le

theorem firsts_le {Q : Question} : (firsts Q).length ≤ ncols Q.A := by
  have h := grps_ok Q
  have hs : (firsts Q).Subperm (List.range (ncols Q.A)) := by
    apply List.subperm_of_subset
    · exact List.Pairwise.imp (fun h => Nat.ne_of_lt h) h.heads
    · intro j hj
      obtain ⟨g, hg, rfl⟩ := List.mem_map.1 hj
      have := ((h.locs g hg _).1 (h.head_mem hg)).1
      rw [codes_length] at this
      simpa using this
  simpa using hs.length_le

theorem firsts_lt {Q : Question} {j : Nat} (hj : j ∈ firsts Q) : j < ncols Q.A := by
  obtain ⟨g, hg, rfl⟩ := List.mem_map.1 hj
  have h := grps_ok Q
  have := ((h.locs g hg _).1 (h.head_mem hg)).1
  rwa [codes_length] at this

/-! ### layouts -/

theorem npDiff_cons_append (a b : Int) (t : Vec) :
    npDiff (a :: b :: t) = (b - a) :: npDiff (b :: t) := rfl

theorem lay_of_heads (H : List Nat) (n : Nat) (hp : H.Pairwise (· < ·)) (hlt : ∀ h ∈ H, h < n)
    (h0 : n ≠ 0 → H.headD 1 = 0) :
    Lay (npDiff (H.map (fun (i : Nat) => (i : Int)) ++ [(n : Int)]))
      (H.map (fun (i : Nat) => (i : Int))) n := by
  have hlen : ∀ (H : List Nat) (m : Int),
      (npDiff (H.map (fun (i : Nat) => (i : Int)) ++ [m])).length = H.length := by
    intro H m
    induction H with
    | nil => rfl
    | cons a H ih =>
      cases H with
      | nil => rfl
      | cons b H =>
        simp only [List.map_cons, List.cons_append] at ih ⊢
        rw [npDiff_cons_append, List.length_cons, ih]; rfl
  have hpos : ∀ (H : List Nat), H.Pairwise (· < ·) → (∀ h ∈ H, h < n) →
      ∀ w ∈ npDiff (H.map (fun (i : Nat) => (i : Int)) ++ [(n : Int)]), 0 < w := by
    intro H hp hlt
    induction H with
    | nil => intro w hw; simp [npDiff] at hw
    | cons a H ih =>
      cases H with
      | nil =>
        intro w hw
        simp only [List.map_cons, List.map_nil, List.cons_append, List.nil_append, npDiff,
          List.mem_singleton] at hw
        have := hlt a (by simp)
        omega
      | cons b H =>
        intro w hw
        simp only [List.map_cons, List.cons_append] at hw
        rw [npDiff_cons_append] at hw
        rcases List.mem_cons.1 hw with rfl | hw
        · have := (List.pairwise_cons.1 hp).1 b (by simp)
          omega
        · exact ih (List.pairwise_cons.1 hp).2 (fun h hh => hlt h (by simp [hh])) w
            (by simpa using hw)
  have hsum : ∀ (H : List Nat) (a : Nat),
      (npDiff ((a :: H).map (fun (i : Nat) => (i : Int)) ++ [(n : Int)])).sum = n - a := by
    intro H
    induction H with
    | nil => intro a; simp [npDiff]
    | cons b H ih =>
      intro a
      have := ih b
      simp only [List.map_cons, List.cons_append] at this ⊢
      rw [npDiff_cons_append, List.sum_cons, this]
      omega
  refine ⟨rfl, ?_, ?_, hpos H hp hlt, ?_⟩
  · cases H with
    | nil =>
      by_cases hn : n = 0
      · subst hn; rfl
      · have := h0 hn; simp at this
    | cons a H =>
      rw [hsum]
      by_cases hn : n = 0
      · have := hlt a (by simp); omega
      · have := h0 hn
        simp only [List.headD_cons] at this
        subst this; simp
  · rw [hlen]; simp
  · intro v hv
    unfold Answer.mk'
    have e1 : (v.length == (H.map (fun (i : Nat) => (i : Int))).length) = true := by
      simpa using hv
    rw [e1]
    simp only [pyAssert_true, ok_bind]
    by_cases hH : (H.map (fun (i : Nat) => (i : Int))).length > 0
    · rw [if_pos hH]
      have hn : n ≠ 0 := by
        cases H with
        | nil => simp at hH
        | cons a H => have := hlt a (by simp); omega
      have e2 : ((H.map (fun (i : Nat) => (i : Int))).headD 0 == 0) = true := by
        have := h0 hn
        cases H with
        | nil => simp at hH
        | cons a H => simpa using this
      have hd : ∀ (H : List Nat), H.Pairwise (· < ·) →
          (npDiff (H.map (fun (i : Nat) => (i : Int)))).all (· != 0) = true := by
        intro H hp
        induction H with
        | nil => rfl
        | cons a H ih =>
          cases H with
          | nil => rfl
          | cons b H =>
            have h1 := (List.pairwise_cons.1 hp).1 b (by simp)
            have h2 := ih (List.pairwise_cons.1 hp).2
            simp only [List.map_cons] at h2 ⊢
            rw [npDiff_cons_append, List.all_cons, h2]
            simp only [bne_iff_ne, Bool.and_true]
            omega
      have e3 : decide ((H.map (fun (i : Nat) => (i : Int))).getLastD 0 < (n : Int)) = true := by
        rw [decide_eq_true_eq]
        have hne : H.map (fun (i : Nat) => (i : Int)) ≠ [] := by
          intro e; rw [e] at hH; simp at hH
        have hm : (H.map (fun (i : Nat) => (i : Int))).getLastD 0 ∈
            H.map (fun (i : Nat) => (i : Int)) := by
          rw [List.getLastD_eq_getLast?, List.getLast?_eq_some_getLast hne, Option.getD_some]
          exact List.getLast_mem hne
        obtain ⟨a, ha, e⟩ := List.mem_map.1 hm
        rw [← e]
        have := hlt a ha
        omega
      rw [e2, hd H hp, e3]
      rfl
    · rw [if_neg hH]

theorem merged_lay (Q : Question) : Lay (widths Q) (merged Q).ans.loc (merged Q).ans.len := by
  have h := grps_ok Q
  refine lay_of_heads (firsts Q) (ncols Q.A) h.heads (fun j hj => firsts_lt hj) ?_
  intro hn
  refine h.head_zero ?_
  intro e
  have := codes_length Q
  rw [e] at this
  exact hn this.symm

theorem unk_replicate (n : Nat) : unk (List.replicate n UNKNOWN) = n := by
  unfold unk; simp [List.countP_replicate, UNKNOWN]

theorem fill_replicate (x : Vec) : fill (List.replicate x.length UNKNOWN) x = x := by
  induction x with
  | nil => rfl
  | cons a x ih =>
    rw [List.length_cons, List.replicate_succ]
    show fill ((-1) :: _) _ = _
    rw [fill_unknown, ih]

theorem col_eq_iff {A : Mat} {i j : Nat} :
    col A i = col A j ↔ ∀ r ∈ A, r.getD i 0 = r.getD j 0 := by
  unfold col; rw [List.map_inj_left]

/-- Equal codes mean equal columns, in the range where the codes do not overflow. -/
theorem codes_inj {Q : Question} (h : Pre Q) {i j : Nat} (hi : i < ncols Q.A) (hj : j < ncols Q.A) :
    (codes Q).getD i 0 = (codes Q).getD j 0 ↔ col Q.A i = col Q.A j := by
  rw [codes_getD hi, codes_getD hj]
  rcases h.rows with h64 | h2
  · exact ⟨colKey_injective h.sys.bin h64, fun e => by rw [e]⟩
  · have : i = j := by omega
    subst this; simp

theorem merged_getD {Q : Question} {r : Vec} {j : Nat} (hj : j < (firsts Q).length) :
    ((firsts Q).map (fun j => r.getD j 0)).getD j 0 = r.getD (firsts Q)[j] 0 := by
  rw [List.getD_eq_getElem _ _ (by simpa using hj)]; simp

theorem merged_inv {Q : Question} (h : Pre Q) : Inv (widths Q) (merged Q) := by
  have hg := grps_ok Q
  have hn := merged_ncols h
  have hlay := merged_lay Q
  have hfl := firsts_le (Q := Q)
  exact
    { sys := by
        rw [hn]
        refine ⟨?_, ?_, ?_, ?_, h.sys.range⟩
        · show Q.A.map _ ≠ []
          simpa using h.sys.ne
        · show Q.b.length = (Q.A.map _).length
          simpa using h.sys.len
        · intro r hr
          obtain ⟨r', -, rfl⟩ := List.mem_map.1 hr
          simp
        · intro r hr
          obtain ⟨r', hr', rfl⟩ := List.mem_map.1 hr
          intro a ha
          obtain ⟨j, -, rfl⟩ := List.mem_map.1 ha
          exact (h.sys.bin r' hr').getD j
      blen := by rw [hn, firsts_length]; simp [merged]
      brange := by
        intro x hx
        obtain ⟨g, hg, rfl⟩ := List.mem_map.1 hx
        have := grp_le hg
        have := h.cols
        omega
      quota0 := h.quota0
      quota127 := h.quota127
      cols := by rw [hn]; exact hfl.trans h.cols
      rows := by
        show (Q.A.map _).length ≤ 64 ∨ _
        rw [hn, List.length_map]
        rcases h.rows with h1 | h1
        · exact Or.inl h1
        · exact Or.inr (by omega)
      cov := by
        intro j hj
        rw [hn] at hj
        have h1 := (List.of_mem_zip h.ones).1
        refine ⟨_, List.mem_map.2 ⟨_, h1, rfl⟩, ?_⟩
        rw [merged_getD hj]
        have := firsts_lt (List.getElem_mem hj)
        rw [List.getD_eq_getElem _ _ (by simpa using this)]
        simp
      dist := by
        intro i hi j hj hij
        rw [hn] at hi hj
        by_contra hcon
        push Not at hcon
        have hi' := firsts_lt (List.getElem_mem hi)
        have hj' := firsts_lt (List.getElem_mem hj)
        have hcol : col Q.A (firsts Q)[i] = col Q.A (firsts Q)[j] := by
          rw [col_eq_iff]
          intro r hr
          have := hcon _ (List.mem_map.2 ⟨r, hr, rfl⟩)
          rwa [merged_getD hi, merged_getD hj] at this
        rw [← codes_inj h hi' hj'] at hcol
        have hi2 : i < (grps Q).length := by rw [← firsts_length]; exact hi
        have hj2 : j < (grps Q).length := by rw [← firsts_length]; exact hj
        have e1 : (firsts Q)[i] = (grps Q)[i].2.headD 0 := by simp [firsts]
        have e2 : (firsts Q)[j] = (grps Q)[j].2.headD 0 := by simp [firsts]
        have k1 := ((hg.locs _ (List.getElem_mem hi2) _).1
          (hg.head_mem (List.getElem_mem hi2))).2
        have k2 := ((hg.locs _ (List.getElem_mem hj2) _).1
          (hg.head_mem (List.getElem_mem hj2))).2
        rw [e1, e2, k1, k2] at hcol
        have hk := hg.keys
        rw [List.nodup_iff_injective_get] at hk
        have := @hk ⟨i, by simpa using hi2⟩ ⟨j, by simpa using hj2⟩ (by simpa using hcol)
        exact hij (by simpa using this)
      unk := by rw [hn]; exact unk_replicate _
      vlen := by
        show (List.replicate _ _).length = _
        rw [List.length_replicate, ← hlay.wlen]
        simp [merged]
      vnn := by
        intro a ha
        exact Or.inl (List.mem_replicate.1 ha).2
      lay := hlay
      cert := by
        rw [hn]
        refine ⟨[((firsts Q).map (fun j => (List.replicate (ncols Q.A) (1 : Int)).getD j 0),
          Q.quota)], ?_, ?_, ?_⟩
        · intro p hp
          rw [List.mem_singleton] at hp
          subst hp
          show _ ∈ (Q.A.map _).zip Q.b
          rw [List.zip_map_left]
          exact List.mem_map.2 ⟨_, h.ones, rfl⟩
        · intro j hj
          simp only [List.map_cons, List.map_nil, List.sum_cons, List.sum_nil, add_zero]
          rw [merged_getD hj]
          have := firsts_lt (List.getElem_mem hj)
          rw [List.getD_eq_getElem _ _ (by simpa using this)]
          simp
        · simp [merged] }

theorem merged_eq_self {Q : Question} (h : Pre Q) (hnd : (codes Q).Nodup) : merged Q = Q := by
  have hgr : grps Q = (codes Q).zipIdx.map (fun p => (p.1, [p.2])) := groups_nodup hnd
  have hf : firsts Q = List.range (ncols Q.A) := by
    unfold firsts
    rw [hgr, List.map_map, ← codes_length, ← zipIdx_map_snd']
    rfl
  unfold merged
  rw [hf, hgr]
  have hA : Q.A.map (fun r => (List.range (ncols Q.A)).map (fun j => r.getD j 0)) = Q.A := by
    conv_rhs => rw [← List.map_id Q.A]
    apply List.map_congr_left
    intro r hr
    exact map_getD_range (h.sys.rect r hr)
  rw [hA, List.length_range, ← h.ans]
  have hb : ((codes Q).zipIdx.map (fun p => (p.1, [p.2]))).map (fun g => (g.2.length : Int)) =
      Q.bounds := by
    rw [List.map_map, h.bounds]
    rw [show ((fun g : Int × List Nat => (g.2.length : Int)) ∘ fun p : Int × Nat => (p.1, [p.2])) =
      fun _ => (1 : Int) from rfl, List.map_const', List.length_zipIdx, codes_length]
  rw [hb]

theorem mapM_pyGet_range {n : Nat} {l : List Nat} (h : ∀ j ∈ l, j < n) :
    l.mapM (pyGet (List.range n)) = .ok l := by
  have := mapM_ok (l := l) (f := pyGet (List.range n)) (g := fun j => j) (by
    intro j hj
    rw [pyGet_of_lt (by simpa using h j hj)]
    simp)
  simpa using this

theorem unknownLoc_replicate (n : Nat) (loc : Vec) (len : Int) :
    (Answer.mk (List.replicate n UNKNOWN) loc len).unknownLoc = List.range n := by
  unfold Answer.unknownLoc npWhere
  have : ∀ i, whereFrom (fun x => x == UNKNOWN) i (List.replicate n UNKNOWN) =
      List.range' i n := by
    induction n with
    | zero => intro i; rfl
    | succ n ih =>
      intro i
      rw [List.replicate_succ, whereFrom, if_pos (by simp), ih, List.range'_succ]
  rw [this, List.range_eq_range']

theorem reduceColBody_pre {Q : Question} (h : Pre Q) : reduceColBody Q = .ok (merged Q) := by
  unfold reduceColBody
  by_cases h2 : ncols Q.A < 2
  · rw [if_pos h2, merged_eq_self h]
    unfold codes
    rw [List.nodup_map_iff_inj_on List.nodup_range]
    intro i hi j hj _
    simp only [List.mem_range] at hi hj
    omega
  · rw [if_neg h2]
    have hne : Q.A.length ≠ 0 := by
      intro h0; exact h.sys.ne (List.eq_nil_of_length_eq_zero h0)
    have henc : Unique.encode Q.A = .ok (codes Q) := by
      unfold Unique.encode; rw [if_neg hne]; rfl
    rw [henc]
    simp only [ok_bind]
    have hg := grps_ok Q
    have hgd : groups (codes Q) = grps Q := rfl
    rw [hgd]
    have hdrop : ∀ j ∈ ((grps Q).map (fun g => g.2.tail)).flatten, j < ncols Q.A := by
      intro j hj
      obtain ⟨l, hl, hj⟩ := List.mem_flatten.1 hj
      obtain ⟨g, hg', rfl⟩ := List.mem_map.1 hl
      have := ((hg.locs g hg' j).1 (List.mem_of_mem_tail hj)).1
      rwa [codes_length] at this
    have hul : Q.ans.unknownLoc = List.range (ncols Q.A) := by
      rw [h.ans]; exact unknownLoc_replicate _ _ _
    rw [hul, mapM_pyGet_range hdrop]
    simp only [ok_bind]
    have hk := hg.keep
    rw [codes_length] at hk
    have hv : npDelete ((grps Q).map (fun g => g.2.tail)).flatten Q.ans.v =
        List.replicate (firsts Q).length UNKNOWN := by
      rw [npDelete_eq_map (n := ncols Q.A) (by rw [h.ans]; simp), hk]
      rw [List.eq_replicate_iff]
      refine ⟨by simp [firsts], ?_⟩
      intro a ha
      obtain ⟨j, hj, rfl⟩ := List.mem_map.1 ha
      have := firsts_lt hj
      rw [h.ans, List.getD_eq_getElem _ _ (by simpa using this)]
      simp
    have hloc : npDelete ((grps Q).map (fun g => g.2.tail)).flatten Q.ans.loc =
        (firsts Q).map (fun (i : Nat) => (i : Int)) := by
      rw [npDelete_eq_map (n := ncols Q.A) (by rw [h.ans]; simp), hk]
      apply List.map_congr_left
      intro j hj
      have := firsts_lt hj
      rw [h.ans, List.getD_eq_getElem _ _ (by simpa using this)]
      simp
    have hb : (grps Q).map (fun g => i8 ((g.2.map (fun j => Q.bounds.getD j 0)).sum)) =
        (grps Q).map (fun g => (g.2.length : Int)) := by
      apply List.map_congr_left
      intro g hg'
      have h1 : g.2.map (fun j => Q.bounds.getD j 0) = List.replicate g.2.length 1 := by
        rw [List.eq_replicate_iff]
        refine ⟨by simp, ?_⟩
        intro a ha
        obtain ⟨j, hj, rfl⟩ := List.mem_map.1 ha
        have := ((hg.locs g hg' j).1 hj).1
        rw [codes_length] at this
        rw [h.bounds, List.getD_eq_getElem _ _ (by simpa using this)]
        simp
      have := grp_le hg'
      have := h.cols
      rw [h1, sum_replicate_int, mul_one, i8_of_range (by omega) (by omega)]
    rw [hv, hloc, hb]
    have hall : ((grps Q).map (fun g => (g.2.length : Int))).all (fun x => decide (x ≥ 0)) = true := by
      rw [List.all_eq_true]
      intro x hx
      obtain ⟨g, -, rfl⟩ := List.mem_map.1 hx
      simp
    have hlen : Q.ans.len = ncols Q.A := by rw [h.ans]
    have hmk := (merged_lay Q).build (List.replicate (firsts Q).length UNKNOWN) (by simp [merged])
    rw [hall, hlen]
    simp only [pyAssert_true, ok_bind]
    change Answer.mk' (List.replicate (firsts Q).length UNKNOWN)
      ((firsts Q).map (fun (i : Nat) => (i : Int))) (ncols Q.A : Int) = _ at hmk
    rw [hmk]
    simp only [ok_bind]
    rw [unknownLoc_length]
    have hn := merged_ncols h
    have hu : (unk (List.replicate (firsts Q).length UNKNOWN) == ncols (merged Q).A) = true := by
      rw [unk_replicate, hn]; simp
    change (do pyAssert (unk (List.replicate (firsts Q).length UNKNOWN) == ncols (merged Q).A)
               .ok (merged Q)) = _
    rw [hu]
    rfl

theorem reducePass_pre {Q : Question} (h : Pre Q) : reducePass Q = reducePass (merged Q) := by
  have e : reduceCol Q = reduceCol (merged Q) := by
    unfold reduceCol
    rw [reduceColBody_pre h, reduceColBody_id (merged_inv h)]
  unfold reducePass
  rw [e]

/-- The loop on the initial question. -/
theorem reduceLoop_pre {Q : Question} (h : Pre Q) (n : Nat) (hn : ncols Q.A + 2 ≤ n) :
    LoopOK (widths Q) (merged Q) (reduceLoop n Q) := by
  have hinv := merged_inv h
  by_cases hcol : ncols (merged Q).A = ncols Q.A
  · have hnd : (codes Q).Nodup := by
      by_contra hcon
      have hk := (grps_ok Q).keys
      have hlt : (grps Q).length < (codes Q).length := by
        have hsub : ((grps Q).map Prod.fst).Subperm (codes Q) :=
          List.subperm_of_subset hk (fun c hc => ((grps_ok Q).mem c).1 hc)
        rcases Nat.lt_or_eq_of_le hsub.length_le with h1 | h1
        · simpa using h1
        · have hp := hsub.perm_of_length_le h1.ge
          exact absurd (hp.nodup_iff.1 hk) hcon
      rw [merged_ncols h, firsts_length] at hcol
      rw [codes_length] at hlt
      omega
    have e := merged_eq_self h hnd
    rw [e] at hinv ⊢
    exact reduceLoop_ok n hinv hn
  · have hlt : ncols (merged Q).A + 1 ≤ ncols Q.A := by
      have := firsts_le (Q := Q)
      rw [merged_ncols h] at hcol ⊢
      omega
    obtain ⟨m, rfl⟩ : ∃ m, n = m + 1 := ⟨n - 1, by omega⟩
    rw [reduceLoop, reducePass_pre h]
    have hp := reducePass_ok hinv
    cases hr : reducePass (merged Q) with
    | error e =>
      rw [hr] at hp
      exact ⟨hp, by intro Q' hQ'; simp at hQ'⟩
    | ok Q' =>
      rw [hr] at hp
      have hne : Q' ≠ Q := by
        intro e
        have := hp.ok.2.1
        rw [e] at this
        omega
      simp only [ok_bind]
      rw [if_neg hne]
      obtain ⟨h1, h2⟩ := reduceLoop_ok m hp.ok.1 (by have := hp.ok.2.1; omega)
      exact ⟨hp.trans h1, h2⟩

/-- The search from the initial question. -/
theorem solveQuestion_pre {Q : Question} (h : Pre Q) :
    TreeOK (widths Q) (merged Q) (solveQuestion Q) := by
  unfold solveQuestion
  refine solveTree_of_loop (reduceLoop_pre h _ (by unfold reduceFuel; omega)) ?_
  intro Q'' h'' hlt
  refine solveTree_ok _ _ h'' ?_
  have := firsts_le (Q := Q)
  rw [merged_ncols h] at hlt
  omega

end TDS
