import Verif.Proof.Inv
import Verif.Proof.Bounds

/-! Each simplification step on questions satisfying the invariant. -/

namespace TDS

/-- A step keeps the invariant and all solutions, adds no sub-solution, and fails only with
`NoSolution`, and only if there is no solution. -/
def StepOK (W : Vec) (Q : Question) (r : Res Question) : Prop :=
  match r with
  | .ok Q' => Inv W Q' ∧ ncols Q'.A ≤ ncols Q.A ∧ (∀ y, SolY W Q y → SolY W Q' y) ∧
      (∀ y, SubY Q' y → SubY Q y)
  | .error .noSolution => ∀ y, ¬ SolY W Q y
  | .error _ => False

theorem StepOK.ok {W : Vec} {Q Q' : Question} (h : StepOK W Q (.ok Q')) :
    Inv W Q' ∧ ncols Q'.A ≤ ncols Q.A ∧ (∀ y, SolY W Q y → SolY W Q' y) ∧
      (∀ y, SubY Q' y → SubY Q y) := h

theorem StepOK.refl {W : Vec} {Q : Question} (h : Inv W Q) : StepOK W Q (.ok Q) :=
  ⟨h, Nat.le_refl _, fun _ h => h, fun _ h => h⟩

theorem StepOK.trans {W : Vec} {Q Q' : Question} {r : Res Question} (h : StepOK W Q (.ok Q'))
    (h' : StepOK W Q' r) : StepOK W Q r := by
  obtain ⟨h1, h2, h3, h4⟩ := h.ok
  match r, h' with
  | .ok Q'', h' =>
    obtain ⟨g1, g2, g3, g4⟩ := h'.ok
    exact ⟨g1, g2.trans h2, fun y hy => g3 y (h3 y hy), fun y hy => h4 y (g4 y hy)⟩
  | .error .noSolution, h' => exact fun y hy => h' y (h3 y hy)

theorem StepOK.bind {W : Vec} {Q : Question} {r : Res Question} {f : Question → Res Question}
    (h : StepOK W Q r) (hf : ∀ Q', r = .ok Q' → Inv W Q' → StepOK W Q' (f Q')) :
    StepOK W Q (r >>= f) := by
  match r, h with
  | .ok Q', h => exact h.trans (hf Q' rfl h.ok.1)
  | .error .noSolution, h => exact h

/-! ### the check after each step -/

theorem Lay.quota {W : Vec} {a : Answer} (h : Lay W a.loc a.len) : a.quota = .ok W := by
  unfold Answer.quota
  simp only [h.diff, h.sum, beq_self_eq_true, pyAssert_true, ok_bind]

theorem sum_le_of_forall₂ {x bd : Vec} (h : List.Forall₂ (fun a b => 0 ≤ a ∧ a ≤ b) x bd) :
    x.sum ≤ bd.sum := by
  induction h with
  | nil => simp
  | cons h1 _ ih => simp only [List.sum_cons]; omega

theorem solY_vleW {W : Vec} {Q : Question} (h : Inv W Q) {y : Vec} (hy : SolY W Q y) :
    List.Forall₂ (· ≤ ·) Q.ans.v W := by
  obtain ⟨x, -, rfl, hW⟩ := hy
  refine Bounds.forall₂_of_getD 0 h.vlen ?_
  intro j hj
  have hj' : j < (fill Q.ans.v x).length := by simpa using hj
  have h1 := Bounds.getD_of_forall₂ 0 hW hj'
  by_cases hm : Q.ans.v.getD j 0 = -1
  · rw [hm]
    have hjW : j < W.length := by rw [← h.vlen]; exact hj
    have := h.lay.pos (W.getD j 0) (by
      rw [List.getD_eq_getElem _ _ hjW]; exact List.getElem_mem _)
    omega
  · rw [fill_getD_known hm] at h1; exact h1

theorem checkAfter_cases {W : Vec} {Q : Question} (h : Inv W Q) :
    (checkAfter Q = .ok Q ∧ (ncols Q.A = 0 → ∀ x ∈ Q.b, x = 0) ∧
      (Q.bounds ≠ [] → Q.quota ≤ Q.bounds.sum) ∧ List.Forall₂ (· ≤ ·) Q.ans.v W) ∨
    (checkAfter Q = .error .noSolution ∧ ∀ y, ¬ SolY W Q y) := by
  unfold checkAfter
  simp only [h.lay.quota]
  by_cases c1 : (ncols Q.A == 0 && Q.b.any (· != 0)) = true
  · right
    rw [if_pos c1]
    refine ⟨rfl, ?_⟩
    rintro y ⟨x, hx, -, -⟩
    simp only [Bool.and_eq_true, beq_iff_eq, List.any_eq_true, bne_iff_ne] at c1
    obtain ⟨c0, e, he, hne⟩ := c1
    obtain ⟨i, hi, rfl⟩ := List.getElem_of_mem he
    have hiA : i < Q.A.length := by rw [← h.sys.len]; exact hi
    have := hx.eq (Q.A[i], Q.b[i]) (by
      rw [List.mem_iff_getElem]; exact ⟨i, by simp; omega, by simp⟩)
    have hx0 : x = [] := List.eq_nil_of_length_eq_zero (by rw [hx.len, c0])
    subst hx0
    simp only [dot_nil_right] at this
    exact hne this.symm
  · rw [if_neg c1, h.blen]
    simp only [beq_self_eq_true, pyAssert_true, ok_bind]
    by_cases c2 : (decide (ncols Q.A > 0) && decide (Q.bounds.sum < Q.quota)) = true
    · right
      rw [if_pos c2]
      refine ⟨rfl, ?_⟩
      rintro y ⟨x, hx, -, -⟩
      simp only [Bool.and_eq_true, decide_eq_true_eq] at c2
      have := sum_le_of_forall₂ hx.bd
      have := hx.sum
      omega
    · rw [if_neg c2]
      by_cases c3 : ((Q.ans.v.zip W).any (fun p => decide (p.1 > p.2))) = true
      · right
        rw [if_pos c3]
        refine ⟨rfl, ?_⟩
        intro y hy
        have hv := solY_vleW h hy
        simp only [List.any_eq_true, decide_eq_true_eq] at c3
        obtain ⟨p, hp, hgt⟩ := c3
        obtain ⟨i, hi, rfl⟩ := List.getElem_of_mem hp
        rw [List.forall₂_iff_get] at hv
        simp only [List.length_zip] at hi
        have := hv.2 i (by omega) (by omega)
        simp only [List.getElem_zip] at hgt
        simp only [List.get_eq_getElem] at this
        omega
      · left
        rw [if_neg c3]
        refine ⟨rfl, ?_, ?_, ?_⟩
        · intro h0 x hx
          simp only [Bool.and_eq_true, beq_iff_eq, List.any_eq_true, bne_iff_ne, not_and,
            not_exists] at c1
          have := c1 h0 x
          by_contra hne
          exact this hx hne
        · intro hne
          simp only [Bool.and_eq_true, decide_eq_true_eq] at c2
          have : 0 < Q.bounds.length := List.length_pos_iff.2 hne
          rw [h.blen] at this
          omega
        · rw [List.forall₂_iff_get]
          refine ⟨h.vlen, ?_⟩
          intro i h1 h2
          simp only [List.any_eq_true, decide_eq_true_eq, not_exists, not_and] at c3
          have := c3 (Q.ans.v[i], W[i]) (by
            rw [List.mem_iff_getElem]; exact ⟨i, by simp; omega, by simp⟩)
          simp only [List.get_eq_getElem]
          omega

theorem checkAfter_ok {W : Vec} {Q : Question} (h : Inv W Q) : StepOK W Q (checkAfter Q) := by
  rcases checkAfter_cases h with ⟨h1, -⟩ | ⟨h1, h2⟩
  · rw [h1]; exact StepOK.refl h
  · rw [h1]; exact h2

/-! ### merging equal columns does nothing -/

theorem groupAdd_new {d : List (Int × List Nat)} {c : Int} {j : Nat} (h : c ∉ d.map Prod.fst) :
    groupAdd d c j = d ++ [(c, [j])] := by
  induction d with
  | nil => rfl
  | cons q d ih =>
    obtain ⟨c', ls⟩ := q
    simp only [List.map_cons, List.mem_cons, not_or] at h
    rw [groupAdd, if_neg (fun e => h.1 e.symm), ih h.2]; rfl

theorem groups_nodup {enc : List Int} (h : enc.Nodup) :
    groups enc = enc.zipIdx.map (fun p => (p.1, [p.2])) := by
  have key : ∀ (l : List Int) (n : Nat) (d : List (Int × List Nat)),
      l.Nodup → (∀ c ∈ l, c ∉ d.map Prod.fst) →
      (l.zipIdx n).foldl (fun d p => groupAdd d p.1 p.2) d =
        d ++ (l.zipIdx n).map (fun p => (p.1, [p.2])) := by
    intro l
    induction l with
    | nil => intro n d _ _; simp
    | cons a l ih =>
      intro n d hnd hd
      rw [List.nodup_cons] at hnd
      rw [List.zipIdx_cons, List.foldl_cons, groupAdd_new (hd a (by simp)), ih _ _ hnd.2]
      · simp
      · intro c hc
        simp only [List.map_append, List.map_cons, List.map_nil, List.mem_append,
          List.mem_singleton, not_or]
        refine ⟨hd c (by simp [hc]), ?_⟩
        intro e; subst e; exact hnd.1 hc
  have := key enc 0 [] h (by simp)
  simpa [groups] using this

theorem map_getD_range {l : Vec} {n : Nat} (h : l.length = n) :
    (List.range n).map (fun j => l.getD j 0) = l := by
  subst h
  apply List.ext_getElem
  · simp
  · intro i h1 h2
    simp [List.getD_eq_getElem?_getD, h2]

theorem col_length (A : Mat) (j : Nat) : (col A j).length = A.length := by simp [col]

theorem col_bin {A : Mat} (h : ∀ r ∈ A, Bin r) (j : Nat) : Bin (col A j) := by
  intro a ha
  obtain ⟨r, hr, rfl⟩ := List.mem_map.1 ha
  exact (h r hr).getD j

theorem colKey_injective {A : Mat} (h : ∀ r ∈ A, Bin r) (h64 : A.length ≤ 64) {i j : Nat}
    (he : Unique.colKey (col A i) = Unique.colKey (col A j)) : col A i = col A j :=
  Gauss.rowKey_injective (col_bin h i) (col_bin h j) (by simp [col_length])
    (by simpa [col_length] using h64) he

theorem encode_nodup {W : Vec} {Q : Question} (h : Inv W Q) (h64 : Q.A.length ≤ 64) :
    ((List.range (ncols Q.A)).map (fun j => Unique.colKey (col Q.A j))).Nodup := by
  rw [List.nodup_map_iff_inj_on List.nodup_range]
  intro i hi j hj he
  by_contra hij
  obtain ⟨r, hr, hne⟩ := h.dist i (by simpa using hi) j (by simpa using hj) hij
  have := colKey_injective h.sys.bin h64 he
  unfold col at this
  rw [List.map_inj_left] at this
  exact hne (this r hr)

theorem zipIdx_map_snd' {α : Type} (l : List α) : l.zipIdx.map Prod.snd = List.range l.length := by
  rw [List.zipIdx_map_snd, List.range_eq_range']

theorem reduceColBody_id {W : Vec} {Q : Question} (h : Inv W Q) : reduceColBody Q = .ok Q := by
  unfold reduceColBody
  by_cases h2 : ncols Q.A < 2
  · rw [if_pos h2]
  · rw [if_neg h2]
    have h64 : Q.A.length ≤ 64 := by
      rcases h.rows with h1 | h1
      · exact h1
      · omega
    have hne : Q.A.length ≠ 0 := by
      have := h.sys.ne
      intro h0; exact this (List.eq_nil_of_length_eq_zero h0)
    have henc : Unique.encode Q.A =
        .ok ((List.range (ncols Q.A)).map (fun j => Unique.colKey (col Q.A j))) := by
      unfold Unique.encode; rw [if_neg hne]
    rw [henc]
    simp only [ok_bind]
    have hnd := encode_nodup h h64
    set enc := (List.range (ncols Q.A)).map (fun j => Unique.colKey (col Q.A j)) with hencdef
    have hlen : enc.length = ncols Q.A := by simp [hencdef]
    rw [groups_nodup hnd]
    have hkeep : (enc.zipIdx.map (fun p => (p.1, [p.2]))).map (fun g => g.2.headD 0) =
        List.range (ncols Q.A) := by
      rw [List.map_map, ← hlen, ← zipIdx_map_snd']
      rfl
    have hdrop : ((enc.zipIdx.map (fun p => (p.1, [p.2]))).map (fun g => g.2.tail)).flatten
        = [] := by
      rw [List.map_map]
      simp [Function.comp_def]
    have hbounds : (enc.zipIdx.map (fun p => (p.1, [p.2]))).map
        (fun g => i8 ((g.2.map (fun j => Q.bounds.getD j 0)).sum)) = Q.bounds := by
      rw [List.map_map]
      have : ∀ p ∈ enc.zipIdx, ((fun g : Int × List Nat =>
          i8 ((g.2.map (fun j => Q.bounds.getD j 0)).sum)) ∘ (fun p => (p.1, [p.2]))) p =
          (fun j => Q.bounds.getD j 0) p.2 := by
        intro p hp
        have hlt := (List.mem_zipIdx hp).2.1
        have hlt' : p.2 < Q.bounds.length := by
          rw [h.blen]; omega
        have hr := h.brange (Q.bounds.getD p.2 0) (by
          rw [List.getD_eq_getElem _ _ hlt']; exact List.getElem_mem _)
        simp only [Function.comp, List.map_cons, List.map_nil, List.sum_cons, List.sum_nil,
          add_zero]
        exact i8_of_range (by omega) (by omega)
      rw [List.map_congr_left this]
      rw [show (fun p : Int × Nat => (fun j => Q.bounds.getD j 0) p.2) =
        (fun j => Q.bounds.getD j 0) ∘ Prod.snd from rfl, ← List.map_map, zipIdx_map_snd', hlen]
      exact map_getD_range h.blen
    have hA : Q.A.map (fun r => (List.range (ncols Q.A)).map (fun j => r.getD j 0)) = Q.A := by
      conv_rhs => rw [← List.map_id Q.A]
      apply List.map_congr_left
      intro r hr
      exact map_getD_range (h.sys.rect r hr)
    rw [hkeep, hdrop, hbounds, hA]
    simp only [List.mapM_nil, npDelete_empty]
    have hpure : (pure [] : Res (List Nat)) = .ok [] := rfl
    rw [hpure]
    simp only [ok_bind, npDelete_empty]
    rw [h.lay.build Q.ans.v (by rw [h.vlen, h.lay.wlen])]
    simp only [ok_bind]
    have hb1 : Q.bounds.all (fun x => decide (x ≥ 0)) = true := by
      rw [List.all_eq_true]; intro x hx; simpa using (h.brange x hx).1
    have hu : (({ v := Q.ans.v, loc := Q.ans.loc, len := Q.ans.len } : Answer).unknownLoc.length
        == ncols Q.A) = true := by
      rw [unknownLoc_length]; simpa using h.unk
    rw [hb1, hu]
    rfl

theorem reduceCol_ok {W : Vec} {Q : Question} (h : Inv W Q) : StepOK W Q (reduceCol Q) := by
  unfold reduceCol
  rw [reduceColBody_id h]
  exact checkAfter_ok h

/-! ### elimination -/

theorem eliminateBody_ok {W : Vec} {Q : Question} (h : Inv W Q) :
    ∃ A' b', eliminateBody Q = .ok { Q with A := A', b := b' } ∧
      ncols A' = ncols Q.A ∧
      StepOK W Q (.ok { Q with A := A', b := b' }) ∧
      (ncols Q.A ≠ 0 → Gauss.elim A' b' = .ok (A', b')) := by
  unfold eliminateBody
  by_cases h0 : ncols Q.A = 0
  · refine ⟨Q.A, Q.b, by rw [if_pos h0], rfl, StepOK.refl h, fun hne => absurd h0 hne⟩
  · rw [if_neg h0]
    obtain ⟨A', b', he, hs⟩ := Gauss.elim_spec h.sys (by omega) h.cols (h.cov 0 (by omega))
    have hall : b'.all (fun x => decide (x ≥ 0)) = true := by
      rw [List.all_eq_true]; intro x hx; simpa using (hs.sys.range x hx).1
    have hn : ncols A' = ncols Q.A := hs.sys.ncols
    refine ⟨A', b', ?_, hn, ?_, fun _ => hs.idem⟩
    · rw [he]; simp only [ok_bind, hall, pyAssert_true]
    · refine ⟨?_, ?_, ?_, ?_⟩
      · exact
          { sys := by show Gauss.Sys (ncols A') A' b'; rw [hn]; exact hs.sys
            blen := by show Q.bounds.length = ncols A'; rw [hn]; exact h.blen
            brange := h.brange
            quota0 := h.quota0
            quota127 := h.quota127
            cols := by show ncols A' ≤ 63; rw [hn]; exact h.cols
            rows := by
              show A'.length ≤ 64 ∨ ncols A' < 2
              rw [hn]
              rcases h.rows with h1 | h1
              · exact Or.inl (hs.length_le.trans h1)
              · exact Or.inr h1
            cov := by
              show ∀ j < ncols A', _
              rw [hn]; intro j hj; exact hs.cov j (h.cov j hj)
            dist := by
              show ∀ i < ncols A', ∀ j < ncols A', i ≠ j → ∃ r ∈ A', r.getD i 0 ≠ r.getD j 0
              rw [hn]
              intro i hi j hj hij
              by_contra hcon
              push Not at hcon
              obtain ⟨r, hr, hne⟩ := h.dist i hi j hj hij
              exact hne (hs.coleq i j hcon r hr)
            unk := by show unk Q.ans.v = ncols A'; rw [hn]; exact h.unk
            vlen := h.vlen
            vnn := h.vnn
            lay := h.lay
            cert := by
              show Cert (ncols A') (A'.zip b') Q.quota
              rw [hn]; exact hs.cert _ h.cert }
      · exact hn.le
      · rintro y ⟨x, hx, hy⟩
        refine ⟨x, ⟨?_, ?_, hx.bd, hx.sum⟩, hy⟩
        · show x.length = ncols A'; rw [hn]; exact hx.len
        · exact hs.sat x hx.eq
      · rintro y ⟨x, hx, hy⟩
        refine ⟨x, ⟨?_, ?_, hx.bd⟩, hy⟩
        · rw [← hn]; exact hx.len
        · exact hs.sub x hx.le

theorem eliminate_ok {W : Vec} {Q : Question} (h : Inv W Q) : StepOK W Q (eliminate Q) := by
  obtain ⟨A', b', h1, -, h3, -⟩ := eliminateBody_ok h
  unfold eliminate
  rw [h1]
  exact h3.trans (checkAfter_ok h3.ok.1)

/-! ### zero bounds -/

theorem setBounds_ok {W : Vec} {Q : Question} (h : Inv W Q) :
    StepOK W Q (.ok { Q with bounds := Bounds.lowerUpperBound Q.A Q.b Q.bounds }) := by
  rw [Bounds.lowerUpperBound_eq]
  have hl : ∀ p ∈ Q.A.zip Q.b, p.1.length = Q.bounds.length := by
    intro p hp; rw [h.blen]; exact h.sys.rect _ (List.of_mem_zip hp).1
  have hlen := Bounds.lub_length hl
  have hbin : ∀ p ∈ Q.A.zip Q.b, Bin p.1 := fun p hp => h.sys.bin _ (List.of_mem_zip hp).1
  refine ⟨?_, Nat.le_refl _, ?_, ?_⟩
  · exact { h with
      blen := by
        show (Bounds.lub (Q.A.zip Q.b) Q.bounds).length = ncols Q.A
        rw [hlen]; exact h.blen
      brange := Bounds.lub_mem hl h.brange (fun p hp => h.sys.range _ (List.of_mem_zip hp).2) }
  · rintro y ⟨x, hx, hy⟩
    refine ⟨x, ⟨hx.len, hx.eq, ?_, hx.sum⟩, hy⟩
    exact Bounds.lub_keeps hl hbin hx.bd (fun p hp => (hx.eq p hp).le)
  · rintro y ⟨x, hx, hy⟩
    refine ⟨x, ⟨hx.len, hx.le, ?_⟩, hy⟩
    have h1 := hx.bd
    have h2 := Bounds.lub_le hl
    refine Bounds.forall₂_of_getD 0 (by rw [hx.len, h.blen]) ?_
    intro j hj
    have g1 := Bounds.getD_of_forall₂ 0 h1 hj
    have g2 := Bounds.getD_of_forall₂ 0 h2 (j := j) (by rw [hlen, h.blen, ← hx.len]; exact hj)
    simp only at g1 g2
    omega

theorem mem_zeroBoundLoc {bd : Vec} {c : Nat} :
    c ∈ Bounds.zeroBoundLoc bd ↔ c < bd.length ∧ bd.getD c 0 = 0 := by
  unfold Bounds.zeroBoundLoc; rw [mem_npWhere]; simp

theorem zipWith_sub_zero {A : Mat} {b : Vec} (ids : List Nat) (h : b.length = A.length) :
    List.zipWith (fun (r : Vec) b => b - (ids.map (fun c => r.getD c 0 * (0 : Int))).sum) A b
      = b := by
  have : ∀ r : Vec, (ids.map (fun c => r.getD c 0 * (0 : Int))).sum = 0 := by
    intro r; simp
  simp only [this, sub_zero]
  apply List.ext_getElem
  · simp [h]
  · intro i h1 h2; simp

theorem zeroInBBody_eq {W : Vec} {Q : Question} (h : Inv W Q) :
    zeroInBBody Q = .ok (asg { Q with bounds := Bounds.lowerUpperBound Q.A Q.b Q.bounds }
      (Bounds.zeroBoundLoc (Bounds.lowerUpperBound Q.A Q.b Q.bounds)) (fun _ => 0)) := by
  have hi := (setBounds_ok h).ok.1
  set bd := Bounds.lowerUpperBound Q.A Q.b Q.bounds with hbd
  set z := Bounds.zeroBoundLoc bd with hz
  have hbl : bd.length = ncols Q.A := hi.blen
  unfold zeroInBBody
  simp only []
  rw [← hbd, ← hz]
  have hul : (Q.ans.unknownLoc.length == bd.length) = true := by
    rw [unknownLoc_length, hbl]; simpa using h.unk
  rw [hul]
  have hnd : z.Nodup := npWhere_nodup _ _
  rw [assignAll_eq' (by
    intro p hp
    obtain ⟨c, hc, rfl⟩ := List.mem_map.1 hp
    have := (mem_zeroBoundLoc.1 hc).1
    rw [h.unk]; simp only; omega), updAll_asgG hnd (fun _ => 0)]
  have hall : (npDelete z bd).all (fun x => decide (x ≥ 0)) = true := by
    rw [List.all_eq_true]; intro x hx; simpa using (hi.brange x (mem_of_mem_npDelete hx)).1
  simp only [pyAssert_true, ok_bind, hall]
  unfold asg
  simp only [zipWith_sub_zero z h.sys.len]
  simp

theorem zeroInBBody_ok {W : Vec} {Q : Question} (h : Inv W Q) : StepOK W Q (zeroInBBody Q) := by
  rw [zeroInBBody_eq h]
  have hset := setBounds_ok h
  have hi := hset.ok.1
  refine hset.trans ?_
  set bd := Bounds.lowerUpperBound Q.A Q.b Q.bounds with hbd
  set z := Bounds.zeroBoundLoc bd with hz
  set Q1 : Question := { Q with bounds := bd } with hQ1
  have hnd : z.Nodup := npWhere_nodup _ _
  have hlt : ∀ c ∈ z, c < ncols Q1.A := by
    intro c hc
    have := (mem_zeroBoundLoc.1 hc).1
    have hb := hi.blen
    simp only [hQ1] at hb ⊢
    omega
  have hw : ∀ c ∈ z, (0 : Int) ≤ (fun _ : Nat => (0 : Int)) c := fun _ _ => le_refl _
  have hbeq : (asg Q1 z (fun _ => 0)).b = Q.b := zipWith_sub_zero z h.sys.len
  have hb : ∀ x ∈ (asg Q1 z (fun _ => 0)).b, 0 ≤ x := by
    rw [hbeq]; intro x hx; exact (h.sys.range x hx).1
  refine ⟨asg_inv hi hnd hlt hw hb, ?_, ?_, ?_⟩
  · have := asg_ncols_add (w := fun _ => 0) hi hnd hlt; omega
  · rintro y ⟨x, hx, hy, hyW⟩
    refine asg_solY hi hnd hlt hw hx ?_ hy hyW
    intro c hc
    have h1 := mem_zeroBoundLoc.1 hc
    have h2 := Bounds.getD_of_forall₂ 0 hx.bd (j := c) (by rw [hx.len]; exact hlt c hc)
    have h3 : Q1.bounds = bd := rfl
    rw [h3, h1.2] at h2
    omega
  · intro y hy
    obtain ⟨x, h1, h2, -⟩ := asg_subY hi hnd hlt hw (by
      intro c hc
      have h3 : Q1.bounds = bd := rfl
      rw [h3, (mem_zeroBoundLoc.1 hc).2]) hy
    exact ⟨x, h1, h2⟩

theorem zeroInB_ok {W : Vec} {Q : Question} (h : Inv W Q) : StepOK W Q (zeroInB Q) := by
  unfold zeroInB
  exact (zeroInBBody_ok h).bind (fun Q' _ h' => checkAfter_ok h')

/-! ### rows with a single unknown -/

theorem exists_w {rcs : List (Nat × Nat)} (h : (rcs.map Prod.snd).Nodup) (f : Nat × Nat → Int) :
    ∃ w : Nat → Int, ∀ rc ∈ rcs, w rc.2 = f rc := by
  induction rcs with
  | nil => exact ⟨fun _ => 0, by simp⟩
  | cons rc rcs ih =>
    simp only [List.map_cons, List.nodup_cons] at h
    obtain ⟨w, hw⟩ := ih h.2
    refine ⟨fun c => if c = rc.2 then f rc else w c, ?_⟩
    intro rc' hrc'
    rcases List.mem_cons.1 hrc' with rfl | hrc'
    · simp
    · have : rc'.2 ≠ rc.2 := by
        intro e; exact h.1 (by rw [← e]; exact List.mem_map_of_mem hrc')
      simp only [this, if_false]
      exact hw rc' hrc'

theorem dot_map_map (cs : List Nat) (f w : Nat → Int) :
    dot (cs.map f) (cs.map w) = (cs.map (fun c => f c * w c)).sum := by
  induction cs with
  | nil => simp
  | cons c cs ih => simp [ih]

theorem sum_sub_le {ids : List Nat} {x : Vec} (hnd : ids.Nodup) (hlt : ∀ c ∈ ids, c < x.length)
    (hx : ∀ a ∈ x, 0 ≤ a) : (ids.map (fun c => x.getD c 0)).sum ≤ x.sum := by
  have h1 := sum_npDelete (l := x) hnd hlt
  have h2 : 0 ≤ (npDelete ids x).sum := by
    have := sum_nonneg' (l := npDelete ids x) (f := id) (fun a ha => hx a (mem_of_mem_npDelete ha))
    simpa using this
  omega

theorem only1With_ok {W : Vec} {Q : Question} {rcs : List (Nat × Nat)} (h : Inv W Q)
    (hr : Bounds.RcsOK Q.A rcs) :
    StepOK W Q (only1With rcs Q) ∧ (∀ Q', only1With rcs Q = .ok Q' → rcs = [] ∧ Q' = Q ∨
      rcs ≠ [] ∧ ncols Q'.A < ncols Q.A) := by
  unfold only1With
  have hul : (Q.ans.unknownLoc.length == Q.bounds.length) = true := by
    rw [unknownLoc_length, h.blen]; simpa using h.unk
  simp only [hul, pyAssert_true, ok_bind]
  by_cases hemp : rcs.isEmpty = true
  · rw [if_pos hemp]
    refine ⟨StepOK.refl h, ?_⟩
    intro Q' hQ'
    left
    exact ⟨List.isEmpty_iff.1 hemp, by simpa using hQ'.symm⟩
  rw [if_neg hemp]
  have hrne : rcs ≠ [] := by simpa using hemp
  obtain ⟨w, hw⟩ := exists_w hr.nodup (fun rc => Q.b.getD rc.1 0)
  have hcsub : rcs.map (fun rc => Q.b.getD rc.1 0) = (rcs.map Prod.snd).map w := by
    rw [List.map_map]
    apply List.map_congr_left
    intro rc hrc; exact (hw rc hrc).symm
  have hpairs : rcs.map (fun rc => (rc.2, Q.b.getD rc.1 0)) =
      (rcs.map Prod.snd).map (fun c => (c, w c)) := by
    rw [List.map_map]
    apply List.map_congr_left
    intro rc hrc
    simp only [Function.comp]; rw [hw rc hrc]
  rw [hcsub, hpairs]
  have hnd := hr.nodup
  set cs := rcs.map Prod.snd with hcs
  have hrow : ∀ rc ∈ rcs, Q.A.getD rc.1 [] ∈ Q.A ∧
      (Q.A.getD rc.1 [], Q.b.getD rc.1 0) ∈ Q.A.zip Q.b := by
    intro rc hrc
    have hlt := (hr.row rc hrc).1
    have hltb : rc.1 < Q.b.length := by rw [h.sys.len]; exact hlt
    rw [List.getD_eq_getElem _ _ hlt, List.getD_eq_getElem _ _ hltb]
    refine ⟨List.getElem_mem _, ?_⟩
    rw [List.mem_iff_getElem]
    exact ⟨rc.1, by simp; omega, by simp⟩
  have hclt : ∀ c ∈ cs, c < ncols Q.A := by
    intro c hc
    obtain ⟨rc, hrc, rfl⟩ := List.mem_map.1 hc
    have h1 := hrow rc hrc
    have h2 := h.sys.rect _ h1.1
    have := (Bounds.dot_single (x := Q.A.getD rc.1 []) (h.sys.bin _ h1.1) (hr.row rc hrc).2 rfl).2.1
    omega
  have hw0 : ∀ c ∈ cs, 0 ≤ w c := by
    intro c hc
    obtain ⟨rc, hrc, rfl⟩ := List.mem_map.1 hc
    rw [hw rc hrc]
    exact (h.sys.range _ (List.of_mem_zip (hrow rc hrc).2).2).1
  have hforced : ∀ x, Sol Q x → ∀ c ∈ cs, x.getD c 0 = w c := by
    intro x hx c hc
    obtain ⟨rc, hrc, rfl⟩ := List.mem_map.1 hc
    have h1 := hrow rc hrc
    have h2 := Bounds.dot_single (x := x) (h.sys.bin _ h1.1) (hr.row rc hrc).2
      (by rw [h.sys.rect _ h1.1, hx.len])
    rw [← h2.1, hx.eq _ h1.2, hw rc hrc]
  have hsumw : 0 ≤ (cs.map w).sum := sum_nonneg' hw0
  by_cases c1 : (rcs.any (fun rc => decide (Q.b.getD rc.1 0 > Q.bounds.getD rc.2 0))) = true
  · rw [if_pos c1]
    refine ⟨?_, by intro Q' hQ'; simp at hQ'⟩
    rintro y ⟨x, hx, -, -⟩
    simp only [List.any_eq_true, decide_eq_true_eq] at c1
    obtain ⟨rc, hrc, hgt⟩ := c1
    have hc : rc.2 ∈ cs := List.mem_map_of_mem hrc
    have h1 := hforced x hx rc.2 hc
    rw [hw rc hrc] at h1
    have h2 := Bounds.getD_of_forall₂ 0 hx.bd (j := rc.2) (by rw [hx.len]; exact hclt _ hc)
    omega
  rw [if_neg c1]
  by_cases c2 : (cs.map w).sum > Q.quota
  · rw [if_pos c2]
    refine ⟨?_, by intro Q' hQ'; simp at hQ'⟩
    rintro y ⟨x, hx, -, -⟩
    have h1 := sum_sub_le (x := x) hnd (by rw [hx.len]; exact hclt) hx.nonneg
    rw [List.map_congr_left (hforced x hx), hx.sum] at h1
    omega
  rw [if_neg c2]
  have hq127 := h.quota127
  -- no wrap-around in the update
  have hupd : ∀ r ∈ Q.A, 0 ≤ (cs.map (fun c => r.getD c 0 * w c)).sum ∧
      (cs.map (fun c => r.getD c 0 * w c)).sum ≤ (cs.map w).sum := by
    intro r hr'
    constructor
    · apply sum_nonneg'
      intro c hc
      have := hw0 c hc
      rcases (h.sys.bin r hr').getD c with h3 | h3 <;> rw [h3] <;> omega
    · have : 0 ≤ (cs.map (fun c => w c - r.getD c 0 * w c)).sum := by
        apply sum_nonneg'
        intro c hc
        have := hw0 c hc
        rcases (h.sys.bin r hr').getD c with h3 | h3 <;> rw [h3] <;> omega
      rw [sum_map_sub'] at this
      omega
  have hupdeq : Q.A.map (fun row => i8 (dot (cs.map (fun c => row.getD c 0)) (cs.map w))) =
      Q.A.map (fun row => (cs.map (fun c => row.getD c 0 * w c)).sum) := by
    apply List.map_congr_left
    intro r hr'
    rw [dot_map_map]
    have := hupd r hr'
    exact i8_of_range (by omega) (by omega)
  rw [hupdeq]
  have hbeq : List.zipWith (fun x y => i8 (x - y)) Q.b
      (Q.A.map (fun row => (cs.map (fun c => row.getD c 0 * w c)).sum)) = (asg Q cs w).b := by
    unfold asg
    apply List.ext_getElem
    · simp [h.sys.len]
    · intro i h1 h2
      simp only [List.getElem_zipWith, List.getElem_map]
      simp only [List.length_zipWith, List.length_map] at h1
      have g1 := hupd (Q.A[i]'(by omega)) (List.getElem_mem _)
      have g2 := h.sys.range (Q.b[i]'(by omega)) (List.getElem_mem _)
      exact i8_of_range (by omega) (by omega)
  by_cases c3 : (((Q.A.map (fun row => (cs.map (fun c => row.getD c 0 * w c)).sum)).zip Q.b).any
      (fun p => decide (p.1 > p.2))) = true
  · rw [if_pos c3]
    refine ⟨?_, by intro Q' hQ'; simp at hQ'⟩
    rintro y ⟨x, hx, -, -⟩
    simp only [List.any_eq_true, decide_eq_true_eq] at c3
    obtain ⟨p, hp, hgt⟩ := c3
    obtain ⟨i, hi, rfl⟩ := List.getElem_of_mem hp
    simp only [List.getElem_zip, List.getElem_map] at hgt
    simp only [List.length_zip, List.length_map] at hi
    have h1 := asg_dot h hnd hclt hx.len (hforced x hx)
      (List.getElem_mem (l := Q.A) (n := i) (by omega))
    have h2 : 0 ≤ dot (npDelete cs (Q.A[i]'(by omega))) (npDelete cs x) := by
      apply dot_nonneg
      · intro a ha
        exact (h.sys.bin _ (List.getElem_mem _)).nonneg a (mem_of_mem_npDelete ha)
      · intro a ha; exact hx.nonneg a (mem_of_mem_npDelete ha)
    have h3 := hx.eq (Q.A[i]'(by omega), Q.b[i]'(by omega)) (by
      rw [List.mem_iff_getElem]; exact ⟨i, by simp; omega, by simp⟩)
    simp only at h3
    omega
  rw [if_neg c3]
  have hb : ∀ x ∈ (asg Q cs w).b, 0 ≤ x := by
    intro x hx
    unfold asg at hx
    obtain ⟨i, hi, rfl⟩ := List.getElem_of_mem hx
    simp only [List.getElem_zipWith]
    simp only [List.length_zipWith] at hi
    simp only [List.any_eq_true, decide_eq_true_eq, not_exists, not_and] at c3
    have := c3 ((cs.map (fun c => (Q.A[i]'(by omega)).getD c 0 * w c)).sum, Q.b[i]'(by omega)) (by
      rw [List.mem_iff_getElem]; exact ⟨i, by simp; omega, by simp⟩)
    simp only at this
    omega
  have hball : (asg Q cs w).b.all (fun x => decide (x ≥ 0)) = true := by
    rw [List.all_eq_true]; intro x hx; simpa using hb x hx
  have hbdall : (npDelete cs Q.bounds).all (fun x => decide (x ≥ 0)) = true := by
    rw [List.all_eq_true]; intro x hx; simpa using (h.brange x (mem_of_mem_npDelete hx)).1
  rw [hbeq, assignAll_eq' (by
    intro p hp
    obtain ⟨c, hc, rfl⟩ := List.mem_map.1 hp
    rw [h.unk]; exact hclt c hc), updAll_asgG hnd w]
  have hq : decide (Q.quota - (cs.map w).sum ≥ 0) = true := by
    simp only [decide_eq_true_eq]; omega
  simp only [ok_bind, hq, hball, hbdall, pyAssert_true]
  change StepOK W Q (.ok (asg Q cs w)) ∧ (∀ Q', Except.ok (asg Q cs w) = Except.ok Q' → _)
  have hnadd := asg_ncols_add (w := w) h hnd hclt
  have hlencs : 0 < cs.length := by
    rw [hcs, List.length_map]; exact List.length_pos_iff.2 hrne
  refine ⟨⟨asg_inv h hnd hclt hw0 hb, by omega, ?_, ?_⟩, ?_⟩
  · rintro y ⟨x, hx, hy, hyW⟩
    exact asg_solY h hnd hclt hw0 hx (hforced x hx) hy hyW
  · intro y hy
    obtain ⟨x, h1, h2, -⟩ := asg_subY h hnd hclt hw0 (by
      intro c hc
      obtain ⟨rc, hrc, rfl⟩ := List.mem_map.1 hc
      rw [hw rc hrc]
      simp only [List.any_eq_true, decide_eq_true_eq, not_exists, not_and] at c1
      have := c1 rc hrc
      omega) hy
    exact ⟨x, h1, h2⟩
  · intro Q' hQ'
    right
    have : asg Q cs w = Q' := by simpa using hQ'
    rw [← this]
    exact ⟨hrne, by omega⟩

theorem only1_ok {W : Vec} {Q : Question} (h : Inv W Q) : StepOK W Q (only1 Q) := by
  unfold only1
  exact (only1With_ok h (Bounds.oneElementRowLocs_ok Q.A)).1.bind
    (fun Q' _ h' => checkAfter_ok h')

theorem reducePass_ok {W : Vec} {Q : Question} (h : Inv W Q) : StepOK W Q (reducePass Q) := by
  unfold reducePass
  refine (reduceCol_ok h).bind (fun Q1 _ h1 => ?_)
  refine (eliminate_ok h1).bind (fun Q2 _ h2 => ?_)
  refine (zeroInB_ok h2).bind (fun Q3 _ h3 => ?_)
  exact only1_ok h3

end TDS
