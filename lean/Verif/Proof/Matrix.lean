import Verif.Proof.Contig
import Verif.Spec

/-! `from_matrix` and `advance` on one partial matrix. -/

namespace TDS

theorem meet_eq_dot {r s : Vec} (h : r.length = s.length) : Spec.meet r s = dot r s := by
  rw [dot_eq_sum (n := r.length) rfl h.symm]; rfl

theorem Bin.take {r : Vec} (h : Bin r) (n : Nat) : Bin (r.take n) :=
  fun a ha => h a (List.mem_of_mem_take ha)

theorem Bin.drop {r : Vec} (h : Bin r) (n : Nat) : Bin (r.drop n) :=
  fun a ha => h a (List.mem_of_mem_drop ha)

theorem Bin.append {r s : Vec} (hr : Bin r) (hs : Bin s) : Bin (r ++ s) := by
  intro a ha
  rcases List.mem_append.1 ha with h | h
  · exact hr a h
  · exact hs a h

theorem Bin.cons {a : Int} {s : Vec} (ha : a = 0 ∨ a = 1) (hs : Bin s) : Bin (a :: s) := by
  intro b hb
  rcases List.mem_cons.1 hb with rfl | h
  · exact ha
  · exact hs b h

theorem bin_dot_le {r s : Vec} (hr : Bin r) (hs : Bin s) : 0 ≤ dot r s ∧ dot r s ≤ r.length := by
  induction r generalizing s with
  | nil => simp
  | cons a r ih =>
    cases s with
    | nil => simp; omega
    | cons b s =>
      have h1 := ih hr.tail hs.tail
      have h2 := hr.head
      have h3 := hs.head
      rw [dot_cons, List.length_cons]
      push_cast
      rcases h2 with rfl | rfl <;> rcases h3 with rfl | rfl <;> omega

theorem part_ncols {v : Nat} {m : Mat} (h : Spec.Part v m) (hne : m ≠ []) : ncols m = v := by
  obtain ⟨r, t, rfl⟩ := List.exists_cons_of_ne_nil hne
  exact h.rect r (by simp)

/-- The parameters read off a matrix. -/
def kOf (m : Mat) : Int := (m.getD 0 []).sum
def lOf (m : Mat) : Int := i8 (dot (m.getD 0 []) (m.getD 1 []))
def uOf (m : Mat) : Int :=
  Int.fdiv (kOf m * (kOf m - lOf m - 1)) ((ncols m : Int) - kOf m - 1)

theorem vklu_eq {m : Mat} (h : 2 ≤ m.length) :
    vklu m = .ok ((ncols m : Int), kOf m, lOf m, uOf m) := by
  unfold vklu
  rw [pyGet_of_lt (by omega), pyGet_of_lt (by omega)]
  simp only [ok_bind]
  unfold uOf lOf kOf
  rw [List.getD_eq_getElem _ _ (by omega), List.getD_eq_getElem _ _ (by omega)]

/-- The known part of the next row. -/
def knownOf (m : Mat) : Vec := col m m.length ++ [0]

/-- Right-hand side of the equation of an earlier row. -/
def bOf (m : Mat) (r : Vec) : Int :=
  i8 ((if r.getD m.length 0 ≠ 0 then i8 (lOf m) else i8 (uOf m)) -
    i8 (dot (r.take (m.length + 1)) (knownOf m)))

/-- The question `from_matrix` builds. -/
def questionOf (m : Mat) : Question :=
  { A := m.map (fun r => r.drop (m.length + 1)) ++
      [List.replicate (ncols m - m.length - 1) 1]
    b := m.map (bOf m) ++ [kOf m - (knownOf m).sum]
    quota := kOf m - (knownOf m).sum
    bounds := List.replicate (ncols m - m.length - 1) 1
    ans := ⟨List.replicate (ncols m - m.length - 1) UNKNOWN,
      (List.range (ncols m - m.length - 1)).map (fun (i : Nat) => (i : Int)),
      (ncols m - m.length - 1 : Nat)⟩ }

theorem default_eq (n : Nat) : Answer.default n =
    .ok ⟨List.replicate n UNKNOWN, (List.range n).map (fun (i : Nat) => (i : Int)), n⟩ := by
  have := (lay_of_heads (List.range n) n List.pairwise_lt_range (by simp) (by
    intro h
    obtain ⟨k, rfl⟩ := Nat.exists_eq_succ_of_ne_zero h
    rw [List.range_succ_eq_map]; rfl)).build (List.replicate n UNKNOWN) (by simp)
  exact this

theorem questionOf_ncols {v : Nat} {m : Mat} (h : Spec.Part v m) (h2 : 2 ≤ m.length) :
    ncols (questionOf m).A = v - m.length - 1 := by
  have hne : m ≠ [] := by rintro rfl; simp at h2
  have hC := part_ncols h hne
  obtain ⟨r, t, e⟩ := List.exists_cons_of_ne_nil hne
  unfold questionOf ncols
  have hr : r.length = v := h.rect r (by rw [e]; simp)
  simp [e, hr]
  omega

theorem questionOf_zip (m : Mat) : (questionOf m).A.zip (questionOf m).b =
    m.map (fun r => (r.drop (m.length + 1), bOf m r)) ++
      [(List.replicate (ncols m - m.length - 1) 1, (questionOf m).quota)] := by
  unfold questionOf
  simp only
  rw [List.zip_append (by simp), List.zip_map']
  rfl

theorem fromMatrix_eq {v : Nat} {m : Mat} (h : Spec.Part v m) (h2 : 2 ≤ m.length)
    (hlt : m.length < v) :
    fromMatrix m = if (questionOf m).b.any (fun x => decide (x < 0)) then .error .noSolution
      else .ok (questionOf m) := by
  have hne : m ≠ [] := by rintro rfl; simp at h2
  have hC := part_ncols h hne
  unfold fromMatrix
  rw [vklu_eq h2]
  simp only [ok_bind]
  rw [if_neg (by omega)]
  have hb0 : List.zipWith (fun q w => i8 (q - w))
      ((col m m.length).map (fun e => if e ≠ 0 then i8 (lOf m) else i8 (uOf m)))
      (m.map (fun r => i8 (dot (r.take (m.length + 1)) (col m m.length ++ [0])))) =
      m.map (bOf m) := by
    unfold col
    rw [List.map_map, List.zipWith_map, List.zipWith_self]
    rfl
  have hd : (if (questionOf m).b.any (fun x => decide (x < 0)) then
      (.error .noSolution : Res Question) else .ok (questionOf m)) =
      if (m.map (bOf m) ++ [kOf m - (knownOf m).sum]).any (fun x => decide (x < 0)) then
        .error .noSolution else .ok (questionOf m) := rfl
  rw [hd, hb0]
  have hkn : col m m.length ++ [0] = knownOf m := rfl
  simp only [hkn]
  change (if (m.map (bOf m) ++ [kOf m - (knownOf m).sum]).any (fun x => decide (x < 0)) then _
    else _) = _
  split
  · rfl
  · rename_i hany
    have hnn : ∀ x ∈ m.map (bOf m) ++ [kOf m - (knownOf m).sum], 0 ≤ x := by
      intro x hx
      by_contra hcon
      exact hany (List.any_eq_true.2 ⟨x, hx, by simpa using hcon⟩)
    have hn := questionOf_ncols h h2
    unfold Question.mk'
    have e1 : ((m.map (fun r => r.drop (m.length + 1)) ++
        [List.replicate (ncols m - m.length - 1) (1 : Int)]).length ==
        (m.map (bOf m) ++ [kOf m - (knownOf m).sum]).length) = true := by simp
    have e2 : (ncols (m.map (fun r => r.drop (m.length + 1)) ++
        [List.replicate (ncols m - m.length - 1) (1 : Int)]) ==
        (List.replicate (ncols m - m.length - 1) (1 : Int)).length) = true := by
      have : ncols (m.map (fun r => r.drop (m.length + 1)) ++
        [List.replicate (ncols m - m.length - 1) (1 : Int)]) = v - m.length - 1 := hn
      rw [this, hC]; simp
    have e3 : (m.map (bOf m) ++ [kOf m - (knownOf m).sum]).all (fun x => decide (x ≥ 0)) = true := by
      rw [List.all_eq_true]; intro x hx; simpa using hnn x hx
    have e4 : decide (kOf m - (knownOf m).sum ≥ 0) = true := by
      simpa using hnn (kOf m - (knownOf m).sum) (by simp)
    have e5 : (List.replicate (ncols m - m.length - 1) (1 : Int)).all
        (fun x => decide (x ≥ 0)) = true := by
      rw [List.all_eq_true]; intro x hx; rw [(List.mem_replicate.1 hx).2]; decide
    rw [e1, e2, e3]
    simp only [pyAssert_true, ok_bind]
    rw [e4, e5]
    simp only [pyAssert_true, ok_bind]
    rw [show ncols (m.map (fun r => r.drop (m.length + 1)) ++
        [List.replicate (ncols m - m.length - 1) (1 : Int)]) = ncols m - m.length - 1 from
          hn.trans (by rw [hC]), default_eq]
    rfl

theorem knownOf_bin {v : Nat} {m : Mat} (h : Spec.Part v m) : Bin (knownOf m) :=
  Bin.append (col_bin h.bin _) (Bin.cons (Or.inl rfl) Bin.nil)

theorem knownOf_length (m : Mat) : (knownOf m).length = m.length + 1 := by
  simp [knownOf, col]

theorem i8_range (x : Int) : -128 ≤ i8 x ∧ i8 x ≤ 127 := by
  unfold i8; rw [Int.bmod_def]; omega

/-- Size limits of one step with `R` rows present: rows of the system fit into 63 bits, and its
columns into 64, unless there is only one. -/
def Small (v R : Nat) : Prop := v ≤ R + 64 ∧ (R ≤ 63 ∨ v ≤ R + 2) ∧ v ≤ 127

theorem Small.of_le {v R : Nat} (hv : v ≤ 66) (h2 : 2 ≤ R) : Small v R :=
  ⟨by omega, by omega, by omega⟩

theorem questionOf_pre' {v : Nat} {m : Mat} (h : Spec.Part v m) (h2 : 2 ≤ m.length)
    (hlt : m.length < v) (hv : Small v m.length)
    (hnn : (questionOf m).b.any (fun x => decide (x < 0)) = false) : Pre (questionOf m) := by
  have hne : m ≠ [] := by rintro rfl; simp at h2
  have hC := part_ncols h hne
  have hn := questionOf_ncols h h2
  obtain ⟨hvc, hvr, hv⟩ := hv
  have hb0 : ∀ x ∈ (questionOf m).b, 0 ≤ x := by
    intro x hx
    by_contra hcon
    have : (questionOf m).b.any (fun x => decide (x < 0)) = true :=
      List.any_eq_true.2 ⟨x, hx, by simpa using hcon⟩
    rw [hnn] at this; cases this
  have hq0 : 0 ≤ (questionOf m).quota := hb0 _ (by simp [questionOf])
  have hr0 : m.getD 0 [] ∈ m := by
    rw [List.getD_eq_getElem _ _ (by omega)]; exact List.getElem_mem _
  have hk := bin_sum_le (z := m.getD 0 []) (h.bin _ hr0)
  rw [h.rect _ hr0] at hk
  have hs := bin_sum_le (knownOf_bin h)
  have hq : (questionOf m).quota ≤ 127 := by
    show kOf m - (knownOf m).sum ≤ 127
    unfold kOf
    omega
  exact
    { sys := by
        rw [hn]
        refine ⟨by simp [questionOf], by simp [questionOf], ?_, ?_, ?_⟩
        · intro r hr
          rcases List.mem_append.1 hr with hr | hr
          · obtain ⟨r', hr', rfl⟩ := List.mem_map.1 hr
            rw [List.length_drop, h.rect r' hr']; omega
          · rw [List.mem_singleton.1 hr, List.length_replicate, hC]
        · intro r hr
          rcases List.mem_append.1 hr with hr | hr
          · obtain ⟨r', hr', rfl⟩ := List.mem_map.1 hr
            exact Bin.drop (h.bin r' hr') _
          · rw [List.mem_singleton.1 hr]
            intro a ha
            exact Or.inr (List.mem_replicate.1 ha).2
        · intro x hx
          refine ⟨hb0 x hx, ?_⟩
          rcases List.mem_append.1 hx with hx | hx
          · obtain ⟨r', -, rfl⟩ := List.mem_map.1 hx
            exact (i8_range _).2
          · rw [List.mem_singleton.1 hx]
            have : (questionOf m).quota = kOf m - (knownOf m).sum := rfl
            omega
      bounds := by rw [hn, ← hC]; rfl
      quota0 := hq0
      quota127 := by omega
      cols := by rw [hn]; omega
      rows := by
        rw [hn]
        have : (questionOf m).A.length = m.length + 1 := by simp [questionOf]
        rw [this]; omega
      ones := by
        rw [hn, questionOf_zip, ← hC]
        simp
      ans := by rw [hn, ← hC]; rfl }

theorem questionOf_pre {v : Nat} {m : Mat} (h : Spec.Part v m) (h2 : 2 ≤ m.length)
    (hlt : m.length < v) (hv : v ≤ 66)
    (hnn : (questionOf m).b.any (fun x => decide (x < 0)) = false) : Pre (questionOf m) :=
  questionOf_pre' h h2 hlt (.of_le hv h2) hnn

/-! ### `advance` -/

theorem solved_eq_false {v : Nat} {m : Mat} (h : Spec.Part v m) (h2 : 2 ≤ m.length)
    (hlt : m.length < v) : solved m = false := by
  have hne : m ≠ [] := by rintro rfl; simp at h2
  unfold solved
  rw [part_ncols h hne]
  simpa using Nat.ne_of_lt hlt

theorem nextRow_eq (m : Mat) (x : Vec) : Spec.nextRow m x = col m m.length ++ [0] ++ x := by
  simp [Spec.nextRow, col]

theorem nextRow_length {v : Nat} {m : Mat} (hlt : m.length < v) {x : Vec}
    (hx : x.length = v - m.length - 1) : (Spec.nextRow m x).length = v := by
  rw [nextRow_eq]; simp [col, hx]; omega

theorem nextRow_bin {v : Nat} {m : Mat} (h : Spec.Part v m) {x : Vec} (hx : Bin x) :
    Bin (Spec.nextRow m x) := by
  rw [nextRow_eq]
  exact Bin.append (knownOf_bin h) hx

theorem appendRow_eq {v : Nat} {m : Mat} (h : Spec.Part v m) (h2 : 2 ≤ m.length)
    (hlt : m.length < v) {x : Vec} (hx : x.length = v - m.length - 1) :
    appendRow m x = .ok (m ++ [Spec.nextRow m x]) := by
  have hne : m ≠ [] := by rintro rfl; simp at h2
  have hl := nextRow_length hlt hx
  rw [nextRow_eq] at hl
  unfold appendRow
  rw [part_ncols h hne]
  simp only
  rw [if_neg (by omega), hl, nextRow_eq]
  simp

theorem colEq_iff_tail {m : Mat} {i j : Nat} :
    col (questionOf m).A i = col (questionOf m).A j ↔
      Spec.ColEq m (m.length + 1 + i) (m.length + 1 + j) ∧
      (List.replicate (ncols m - m.length - 1) (1 : Int)).getD i 0 =
        (List.replicate (ncols m - m.length - 1) (1 : Int)).getD j 0 := by
  rw [col_eq_iff]
  unfold questionOf Spec.ColEq
  simp only [List.mem_append, List.mem_map, List.mem_singleton]
  constructor
  · intro h
    refine ⟨?_, h _ (Or.inr rfl)⟩
    intro r hr
    have := h _ (Or.inl ⟨r, hr, rfl⟩)
    simpa [List.getD_eq_getElem?_getD, List.getElem?_drop] using this
  · rintro ⟨h1, h2⟩ r (⟨r', hr', rfl⟩ | rfl)
    · have := h1 r' hr'
      simpa [List.getD_eq_getElem?_getD, List.getElem?_drop] using this
    · exact h2

theorem colEq_iff_tail' {v : Nat} {m : Mat} (hC : ncols m = v) {i j : Nat}
    (hi : i < v - m.length - 1) (hj : j < v - m.length - 1) :
    col (questionOf m).A i = col (questionOf m).A j ↔
      Spec.ColEq m (m.length + 1 + i) (m.length + 1 + j) := by
  rw [colEq_iff_tail, hC]
  constructor
  · exact fun h => h.1
  · intro h
    refine ⟨h, ?_⟩
    rw [List.getD_eq_getElem _ _ (by simpa using hi), List.getD_eq_getElem _ _ (by simpa using hj)]
    simp

theorem adjCols_iff {v : Nat} {m : Mat} (h : Spec.Part v m) (h2 : 2 ≤ m.length)
    (ha : Spec.Adjacent v m) :
    AdjCols (questionOf m).A (ncols (questionOf m).A) := by
  have hne : m ≠ [] := by rintro rfl; simp at h2
  have hC := part_ncols h hne
  rw [questionOf_ncols h h2]
  intro i j k hij hjk hk he
  rw [colEq_iff_tail' hC (by omega) hk] at he
  rw [colEq_iff_tail' hC (by omega) (by omega)]
  exact ha _ _ _ (by omega) (by omega) (by omega) (by omega) he

theorem nextRow_getD_tail (m : Mat) (x : Vec) (j : Nat) :
    (Spec.nextRow m x).getD (m.length + 1 + j) 0 = x.getD j 0 := by
  rw [nextRow_eq]
  simp only [List.getD_eq_getElem?_getD]
  rw [List.getElem?_append_right (by simp [col])]
  congr 2
  simp [col]

theorem lj_iff {v : Nat} {m : Mat} (h : Spec.Part v m) (h2 : 2 ≤ m.length) {x : Vec} :
    LJ (questionOf m).A (ncols (questionOf m).A) x ↔
      Spec.LeftJustified v m (Spec.nextRow m x) := by
  have hne : m ≠ [] := by rintro rfl; simp at h2
  have hC := part_ncols h hne
  rw [questionOf_ncols h h2]
  constructor
  · intro hl i j hi hij hj he
    obtain ⟨i', rfl⟩ : ∃ i', i = m.length + 1 + i' := ⟨i - (m.length + 1), by omega⟩
    obtain ⟨j', rfl⟩ : ∃ j', j = m.length + 1 + j' := ⟨j - (m.length + 1), by omega⟩
    rw [nextRow_getD_tail, nextRow_getD_tail]
    exact hl i' j' (by omega) (by omega) ((colEq_iff_tail' hC (by omega) (by omega)).2 he)
  · intro hl i j hij hj he
    have := hl (m.length + 1 + i) (m.length + 1 + j) (by omega) (by omega) (by omega)
      ((colEq_iff_tail' hC (by omega) (by omega)).1 he)
    rwa [nextRow_getD_tail, nextRow_getD_tail] at this

/-- The inner product with the completed row splits into the known and the unknown part. -/
theorem meet_nextRow {v : Nat} {m : Mat} (h : Spec.Part v m) (hlt : m.length < v) {x : Vec}
    (hx : x.length = v - m.length - 1) {r : Vec} (hr : r ∈ m) :
    Spec.meet r (Spec.nextRow m x) =
      dot (r.take (m.length + 1)) (knownOf m) + dot (r.drop (m.length + 1)) x := by
  have hl := h.rect r hr
  rw [meet_eq_dot (by rw [nextRow_length hlt hx, hl])]
  conv_lhs => rw [← List.take_append_drop (m.length + 1) r]
  rw [nextRow_eq]
  exact dot_append (by rw [List.length_take]; simp [col]; omega)

theorem nextRow_sum (m : Mat) (x : Vec) :
    (Spec.nextRow m x).sum = (knownOf m).sum + x.sum := by
  rw [nextRow_eq, List.sum_append]; rfl

/-- Parameters that fit a matrix: degree and adjacent intersection as in its first two rows,
and the counting identity between them. -/
structure Params (v : Nat) (k l u : Int) (m : Mat) : Prop where
  deg : (m.getD 0 []).sum = k
  inter : Spec.meet (m.getD 0 []) (m.getD 1 []) = l
  count : ((v : Int) - k - 1) * u = k * (k - l - 1)
  degenerate : (v : Int) = k + 1 → u = 0
  u0 : 0 ≤ u
  u127 : u ≤ 127

theorem params_eq {v : Nat} {k l u : Int} {m : Mat} (h : Spec.Part v m) (h2 : 2 ≤ m.length)
    (hv : v ≤ 66) (hp : Params v k l u m) :
    kOf m = k ∧ lOf m = l ∧ uOf m = u ∧ 0 ≤ l ∧ l ≤ 66 := by
  have hne : m ≠ [] := by rintro rfl; simp at h2
  have hC := part_ncols h hne
  have hr0 : m.getD 0 [] ∈ m := by
    rw [List.getD_eq_getElem _ _ (by omega)]; exact List.getElem_mem _
  have hr1 : m.getD 1 [] ∈ m := by
    rw [List.getD_eq_getElem _ _ (by omega)]; exact List.getElem_mem _
  have hk : kOf m = k := hp.deg
  have hd : dot (m.getD 0 []) (m.getD 1 []) = l := by
    rw [← meet_eq_dot (by rw [h.rect _ hr0, h.rect _ hr1])]; exact hp.inter
  have hlb := bin_dot_le (h.bin _ hr0) (h.bin _ hr1)
  rw [hd, h.rect _ hr0] at hlb
  have hl : lOf m = l := by
    unfold lOf; rw [hd, i8_of_range (by omega) (by omega)]
  refine ⟨hk, hl, ?_, by omega, by omega⟩
  unfold uOf
  rw [hk, hl, hC, ← hp.count]
  by_cases h0 : (v : Int) - k - 1 = 0
  · rw [h0, hp.degenerate (by omega)]; rfl
  · exact Int.mul_fdiv_cancel_left _ h0

/-- The parameters `vklu` reads off a matrix, when they are representable. -/
structure Vals (v : Nat) (k l u : Int) (m : Mat) : Prop where
  hk : kOf m = k
  hl : lOf m = l
  hu : uOf m = u
  l0 : 0 ≤ l
  u0 : 0 ≤ u
  u127 : u ≤ 127

theorem Params.vals {v : Nat} {k l u : Int} {m : Mat} (hp : Params v k l u m) (h : Spec.Part v m)
    (h2 : 2 ≤ m.length) (hv : v ≤ 66) : Vals v k l u m := by
  obtain ⟨h1, h3, h4, h5, -⟩ := params_eq h h2 hv hp
  exact ⟨h1, h3, h4, h5, hp.u0, hp.u127⟩

theorem bOf_eq {v : Nat} {k l u : Int} {m : Mat} (h : Spec.Part v m) (h2 : 2 ≤ m.length)
    (hv : v ≤ 127) (hp : Vals v k l u m) {r : Vec} (hr : r ∈ m) :
    bOf m r = (if r.getD m.length 0 = 1 then l else u) -
      dot (r.take (m.length + 1)) (knownOf m) := by
  have hl := hp.hl
  have hu := hp.hu
  have hl0 := hp.l0
  have hl1 : l ≤ 127 := by rw [← hl]; exact (i8_range _).2
  have hu0 := hp.u0
  have hu1 := hp.u127
  have hb := bin_dot_le (Bin.take (h.bin r hr) (m.length + 1)) (knownOf_bin h)
  have htl : ((r.take (m.length + 1)).length : Int) ≤ 127 := by
    rw [List.length_take, h.rect r hr]; omega
  unfold bOf
  rw [hl, hu, i8_of_range (x := l) (by omega) (by omega),
    i8_of_range (x := u) (by omega) (by omega),
    i8_of_range (x := dot _ _) (by omega) (by omega)]
  have he : (if r.getD m.length 0 ≠ 0 then l else u) =
      if r.getD m.length 0 = 1 then l else u := by
    rcases Bin.getD (h.bin r hr) m.length with e | e <;> rw [e] <;> simp
  rw [he, i8_of_range]
  · split <;> omega
  · split <;> omega

theorem mem_iff_getD {m : Mat} {P : Vec → Prop} :
    (∀ i < m.length, P (m.getD i [])) ↔ ∀ r ∈ m, P r := by
  constructor
  · intro h r hr
    obtain ⟨i, hi, rfl⟩ := List.getElem_of_mem hr
    have := h i hi
    rwa [List.getD_eq_getElem _ _ hi] at this
  · intro h i hi
    rw [List.getD_eq_getElem _ _ hi]
    exact h _ (List.getElem_mem _)

theorem rowOK_iff {k l u : Int} {m : Mat} {row : Vec} : Spec.RowOK k l u m row ↔
    row.sum = k ∧ ∀ r ∈ m, Spec.meet r row = if r.getD m.length 0 = 1 then l else u := by
  unfold Spec.RowOK Spec.ent
  rw [← mem_iff_getD (P := fun r => Spec.meet r row = if r.getD m.length 0 = 1 then l else u)]

theorem rowLE_iff {k l u : Int} {m : Mat} {row : Vec} : Spec.RowLE k l u m row ↔
    row.sum ≤ k ∧ ∀ r ∈ m, Spec.meet r row ≤ if r.getD m.length 0 = 1 then l else u := by
  unfold Spec.RowLE Spec.ent
  rw [← mem_iff_getD (P := fun r => Spec.meet r row ≤ if r.getD m.length 0 = 1 then l else u)]

theorem sat01_iff {v : Nat} {k l u : Int} {m : Mat} (h : Spec.Part v m) (h2 : 2 ≤ m.length)
    (hlt : m.length < v) (hv : v ≤ 127) (hp : Vals v k l u m) {x : Vec}
    (hx : x.length = v - m.length - 1) :
    (∀ p ∈ (questionOf m).A.zip (questionOf m).b, dot p.1 x = p.2) ↔
      Spec.RowOK k l u m (Spec.nextRow m x) := by
  have hne : m ≠ [] := by rintro rfl; simp at h2
  have hC := part_ncols h hne
  have hk := hp.hk
  rw [questionOf_zip, rowOK_iff, nextRow_sum]
  have hq : (questionOf m).quota = k - (knownOf m).sum := by rw [← hk]; rfl
  constructor
  · intro hall
    refine ⟨?_, ?_⟩
    · have := hall _ (List.mem_append_right _ (List.mem_singleton.2 rfl))
      rw [dot_replicate_one _ _ (by rw [hx, hC]), hq] at this
      omega
    · intro r hr
      have := hall _ (List.mem_append_left _ (List.mem_map.2 ⟨r, hr, rfl⟩))
      simp only at this
      rw [meet_nextRow h hlt hx hr, this, bOf_eq h h2 hv hp hr]
      omega
  · rintro ⟨hs, hall⟩ p hp'
    rcases List.mem_append.1 hp' with hp' | hp'
    · obtain ⟨r, hr, rfl⟩ := List.mem_map.1 hp'
      have := hall r hr
      rw [meet_nextRow h hlt hx hr] at this
      simp only
      rw [bOf_eq h h2 hv hp hr, ← this]
      omega
    · rw [List.mem_singleton.1 hp']
      simp only
      rw [dot_replicate_one _ _ (by rw [hx, hC]), hq]
      omega

theorem sub01_iff {v : Nat} {k l u : Int} {m : Mat} (h : Spec.Part v m) (h2 : 2 ≤ m.length)
    (hlt : m.length < v) (hv : v ≤ 127) (hp : Vals v k l u m) {x : Vec}
    (hx : x.length = v - m.length - 1) :
    (∀ p ∈ (questionOf m).A.zip (questionOf m).b, dot p.1 x ≤ p.2) ↔
      Spec.RowLE k l u m (Spec.nextRow m x) := by
  have hne : m ≠ [] := by rintro rfl; simp at h2
  have hC := part_ncols h hne
  have hk := hp.hk
  rw [questionOf_zip, rowLE_iff, nextRow_sum]
  have hq : (questionOf m).quota = k - (knownOf m).sum := by rw [← hk]; rfl
  constructor
  · intro hall
    refine ⟨?_, ?_⟩
    · have := hall _ (List.mem_append_right _ (List.mem_singleton.2 rfl))
      rw [dot_replicate_one _ _ (by rw [hx, hC]), hq] at this
      omega
    · intro r hr
      have := hall _ (List.mem_append_left _ (List.mem_map.2 ⟨r, hr, rfl⟩))
      simp only at this
      rw [meet_nextRow h hlt hx hr]
      rw [bOf_eq h h2 hv hp hr] at this
      omega
  · rintro ⟨hs, hall⟩ p hp'
    rcases List.mem_append.1 hp' with hp' | hp'
    · obtain ⟨r, hr, rfl⟩ := List.mem_map.1 hp'
      have := hall r hr
      rw [meet_nextRow h hlt hx hr] at this
      simp only
      rw [bOf_eq h h2 hv hp hr]
      omega
    · rw [List.mem_singleton.1 hp']
      simp only
      rw [dot_replicate_one _ _ (by rw [hx, hC]), hq]
      omega

/-- What `advance` returns on a partial matrix. -/
structure AdvOK (v : Nat) (m : Mat) (rows : List Vec) : Prop where
  eq : advance m = .ok (rows.map (fun x => m ++ [Spec.nextRow m x]))
  nodup : rows.Nodup
  shape : ∀ x ∈ rows, x.length = v - m.length - 1 ∧ Bin x
  lj : Spec.Adjacent v m → ∀ x ∈ rows, Spec.LeftJustified v m (Spec.nextRow m x)
  le : Spec.Adjacent v m → ∀ k l u, Vals v k l u m → ∀ x ∈ rows,
    Spec.RowLE k l u m (Spec.nextRow m x)
  all : Spec.Adjacent v m → ∀ k l u, Vals v k l u m → ∀ x, x.length = v - m.length - 1 → Bin x →
    Spec.RowOK k l u m (Spec.nextRow m x) → Spec.LeftJustified v m (Spec.nextRow m x) → x ∈ rows

theorem dot_nonneg_bin {r x : Vec} (hr : Bin r) (hx : Bin x) : 0 ≤ dot r x := (bin_dot_le hr hx).1

theorem advance_spec' {v : Nat} {m : Mat} (h : Spec.Part v m) (h2 : 2 ≤ m.length)
    (hlt : m.length < v) (hv : Small v m.length) : ∃ rows, AdvOK v m rows := by
  have hv127 := hv.2.2
  have hs := solved_eq_false h h2 hlt
  have hfm := fromMatrix_eq h h2 hlt
  cases hany : (questionOf m).b.any (fun x => decide (x < 0)) with
  | true =>
    rw [hany] at hfm
    refine ⟨[], ?_, List.nodup_nil, by simp, by simp, by simp, ?_⟩
    · unfold advance
      rw [hs, hfm]; rfl
    · intro _ k l u hp x hx hb hok _
      exfalso
      rw [← sat01_iff h h2 hlt (by omega) hp hx] at hok
      obtain ⟨b, hb', hneg⟩ := List.any_eq_true.1 hany
      obtain ⟨i, hi, e⟩ := List.getElem_of_mem hb'
      have hA : i < (questionOf m).A.length := by
        have : (questionOf m).A.length = (questionOf m).b.length := by simp [questionOf]
        omega
      have hmem : ((questionOf m).A[i], (questionOf m).b[i]) ∈
          (questionOf m).A.zip (questionOf m).b := by
        rw [List.mem_iff_getElem]
        exact ⟨i, by rw [List.length_zip]; omega, by simp⟩
      have := hok _ hmem
      simp only [e] at this
      have hbin : Bin (questionOf m).A[i] := by
        have hm : (questionOf m).A[i] ∈ (questionOf m).A := List.getElem_mem _
        rcases List.mem_append.1 hm with hm | hm
        · obtain ⟨r', hr', e'⟩ := List.mem_map.1 hm
          rw [← e']
          exact Bin.drop (h.bin r' hr') _
        · rw [List.mem_singleton.1 hm]
          intro a ha
          exact Or.inr (List.mem_replicate.1 ha).2
      have h0 := dot_nonneg_bin hbin hb
      rw [this] at h0
      simp only [decide_eq_true_eq] at hneg
      omega
  | false =>
    rw [hany] at hfm
    simp only [Bool.false_eq_true, if_false] at hfm
    have hpre := questionOf_pre' h h2 hlt hv hany
    have hn := questionOf_ncols h h2
    obtain ⟨rows, h1, hnd, hshape⟩ := solveQuestion_total hpre
    rw [hn] at hshape
    have hadv : advance m = .ok (rows.map (fun x => m ++ [Spec.nextRow m x])) := by
      unfold advance
      rw [hs, hfm]
      simp only [Bool.not_false, pyAssert_true, ok_bind]
      rw [h1]
      simp only [ok_bind]
      exact mapM_ok (fun x hx => appendRow_eq h h2 hlt (hshape x hx).1)
    have hrows : Spec.Adjacent v m → (∀ x ∈ rows, Sub01 (questionOf m) x ∧
        LJ (questionOf m).A (ncols (questionOf m).A) x) ∧
        (∀ x, Sat01 (questionOf m) x → LJ (questionOf m).A (ncols (questionOf m).A) x →
          x ∈ rows) := by
      intro ha
      obtain ⟨rows', h1', -, h3', h4'⟩ := solveQuestion_rows hpre (adjCols_iff h h2 ha)
      rw [h1] at h1'
      cases h1'
      exact ⟨h3', h4'⟩
    refine ⟨rows, hadv, hnd, hshape, ?_, ?_, ?_⟩
    · intro ha x hx
      exact (lj_iff h h2).1 (((hrows ha).1 x hx).2)
    · intro ha k l u hp x hx
      exact (sub01_iff h h2 hlt (by omega) hp (hshape x hx).1).1 ((hrows ha).1 x hx).1.2.2
    · intro ha k l u hp x hx hb hok hlj
      refine (hrows ha).2 x ⟨by rw [hn]; exact hx, hb, ?_⟩ ((lj_iff h h2).2 hlj)
      exact (sat01_iff h h2 hlt (by omega) hp hx).2 hok

theorem advance_spec {v : Nat} {m : Mat} (h : Spec.Part v m) (h2 : 2 ≤ m.length)
    (hlt : m.length < v) (hv : v ≤ 66) : ∃ rows, AdvOK v m rows :=
  advance_spec' h h2 hlt (.of_le hv h2)

end TDS
