import Verif.Proof.Seed

/-! C06–C11: one step of the search (one new row). -/

namespace TDS

theorem solves_iff {A : Mat} {b x : Vec} (hA : ∀ r ∈ A, r.length = x.length)
    (hl : A.length = b.length) :
    Spec.Solves A b x ↔ ∀ p ∈ A.zip b, dot p.1 x = p.2 := by
  unfold Spec.Solves
  constructor
  · intro h p hp
    obtain ⟨i, hi, rfl⟩ := List.getElem_of_mem hp
    rw [List.length_zip] at hi
    have := h i (by omega)
    rw [List.getD_eq_getElem _ _ (by omega), List.getD_eq_getElem _ _ (by omega),
      meet_eq_dot (hA _ (List.getElem_mem _))] at this
    rw [List.getElem_zip]
    exact this
  · intro h i hi
    have hm : (A[i], b[i]'(by omega)) ∈ A.zip b := by
      rw [List.mem_iff_getElem]
      exact ⟨i, by rw [List.length_zip]; omega, by simp⟩
    have := h _ hm
    rw [List.getD_eq_getElem _ _ (by omega), List.getD_eq_getElem _ _ (by omega),
      meet_eq_dot (hA _ (List.getElem_mem _))]
    exact this

theorem questionOf_rect {v : Nat} {m : Mat} (h : Spec.Part v m) (h2 : 2 ≤ m.length) :
    (∀ r ∈ (questionOf m).A, r.length = v - m.length - 1) ∧
      (questionOf m).A.length = (questionOf m).b.length := by
  have hne : m ≠ [] := by rintro rfl; simp at h2
  have hC := part_ncols h hne
  constructor
  · intro r hr
    rcases List.mem_append.1 hr with hr | hr
    · obtain ⟨s, hs, rfl⟩ := List.mem_map.1 hr
      rw [List.length_drop, h.rect s hs]; omega
    · rw [List.mem_singleton.1 hr, List.length_replicate, hC]
  · simp [questionOf]

theorem questionOf_solves {v : Nat} {m : Mat} (h : Spec.Part v m) (h2 : 2 ≤ m.length) {x : Vec}
    (hx : x.length = v - m.length - 1) : Spec.Solves (questionOf m).A (questionOf m).b x ↔
      ∀ p ∈ (questionOf m).A.zip (questionOf m).b, dot p.1 x = p.2 := by
  obtain ⟨h3, h4⟩ := questionOf_rect h h2
  exact solves_iff (fun r hr => by rw [h3 r hr, hx]) h4

theorem vals_of_vklu {v : Nat} {m : Mat} (h2 : 2 ≤ m.length)
    (hv : v ≤ 127) (h : Spec.Part v m) {v' k l u : Int} (he : vklu m = .ok (v', k, l, u))
    (hu0 : 0 ≤ u) (hu1 : u ≤ 127) : Vals v k l u m := by
  rw [vklu_eq h2] at he
  simp only [Except.ok.injEq, Prod.mk.injEq] at he
  obtain ⟨-, h3, h4, h5⟩ := he
  refine ⟨h3, h4, h5, ?_, hu0, hu1⟩
  rw [← h4]
  unfold lOf
  have hr0 : m.getD 0 [] ∈ m := by
    rw [List.getD_eq_getElem _ _ (by omega)]; exact List.getElem_mem _
  have hr1 : m.getD 1 [] ∈ m := by
    rw [List.getD_eq_getElem _ _ (by omega)]; exact List.getElem_mem _
  have hlb := bin_dot_le (h.bin _ hr0) (h.bin _ hr1)
  rw [h.rect _ hr0] at hlb
  rw [i8_of_range (by omega) (by omega)]
  exact hlb.1

/-- **C06.**  The linear system built from a partial matrix expresses exactly the conditions on
the next row.  `k, l, u` are the parameters the code reads off the matrix; `u` must fit in `int8`. -/
theorem C06_from_matrix {v : Nat} {m : Mat} (h : Spec.Part v m) (h2 : 2 ≤ m.length)
    (hlt : m.length < v) (hv : v ≤ 127) {v' k l u : Int} (he : vklu m = .ok (v', k, l, u))
    (hu0 : 0 ≤ u) (hu1 : u ≤ 127) :
    (∃ q, fromMatrix m = .ok q ∧ ∀ x : Vec, x.length = v - m.length - 1 →
        (Spec.Solves q.A q.b x ↔ Spec.RowOK k l u m (Spec.nextRow m x))) ∨
    (fromMatrix m = .error .noSolution ∧ ∀ x : Vec, x.length = v - m.length - 1 → Spec.Bin x →
        ¬ Spec.RowOK k l u m (Spec.nextRow m x)) := by
  have hp := vals_of_vklu h2 hv h he hu0 hu1
  have hfm := fromMatrix_eq h h2 hlt
  cases hany : (questionOf m).b.any (fun x => decide (x < 0)) with
  | false =>
    left
    rw [hany] at hfm
    refine ⟨_, hfm, fun x hx => ?_⟩
    rw [questionOf_solves h h2 hx]
    exact sat01_iff h h2 hlt hv hp hx
  | true =>
    right
    rw [hany] at hfm
    refine ⟨hfm, fun x hx hb hok => ?_⟩
    rw [← sat01_iff h h2 hlt hv hp hx, ← questionOf_solves h h2 hx] at hok
    obtain ⟨b, hb', hneg⟩ := List.any_eq_true.1 hany
    obtain ⟨i, hi, e⟩ := List.getElem_of_mem hb'
    obtain ⟨h3, h4⟩ := questionOf_rect h h2
    have hi' : i < (questionOf m).A.length := by omega
    have := hok i hi'
    rw [List.getD_eq_getElem _ _ hi', List.getD_eq_getElem _ _ hi, e] at this
    have hmem : (questionOf m).A[i] ∈ (questionOf m).A := List.getElem_mem _
    have hbin : Bin (questionOf m).A[i] := by
      rcases List.mem_append.1 hmem with hm | hm
      · obtain ⟨r', hr', e'⟩ := List.mem_map.1 hm
        rw [← e']
        exact Bin.drop (h.bin r' hr') _
      · rw [List.mem_singleton.1 hm]
        intro a ha
        exact Or.inr (List.mem_replicate.1 ha).2
    rw [meet_eq_dot (by rw [h3 _ hmem, hx])] at this
    have h0 := dot_nonneg_bin hbin hb
    simp only [decide_eq_true_eq] at hneg
    omega

/-- Non-vacuity: the pentagon seed gives a system with a solution; a third row can already
exceed the degree. -/
example : ∃ q, fromMatrix [[0, 1, 1, 0, 0], [1, 0, 0, 1, 0]] = .ok q ∧
    vklu [[0, 1, 1, 0, 0], [1, 0, 0, 1, 0]] = .ok (5, 2, 0, 1) ∧ Spec.Solves q.A q.b [0, 1] := by
  refine ⟨_, rfl, rfl, ?_⟩
  intro i hi
  change i < 3 at hi
  obtain rfl | rfl | rfl : i = 0 ∨ i = 1 ∨ i = 2 := by omega
  all_goals decide

example : vklu [[0, 1, 0, 1, 0], [1, 0, 0, 1, 0], [0, 0, 0, 1, 0]] = .ok (5, 2, 1, 0) ∧
    fromMatrix [[0, 1, 0, 1, 0], [1, 0, 0, 1, 0], [0, 0, 0, 1, 0]] = .error .noSolution := by
  decide

/-- **C07.**  On a partial matrix whose equal columns are adjacent, every left-justified 0/1
solution of the system is found. -/
theorem C07_all_rows {v : Nat} {m : Mat} (h : Spec.Part v m) (h2 : 2 ≤ m.length)
    (hlt : m.length < v) (hv : v ≤ 66) (ha : Spec.Adjacent v m) {q : Question}
    (hq : fromMatrix m = .ok q) :
    ∃ rows, solveQuestion q = .ok rows ∧ ∀ x : Vec, x.length = v - m.length - 1 → Spec.Bin x →
      Spec.Solves q.A q.b x → Spec.LeftJustified v m (Spec.nextRow m x) → x ∈ rows := by
  have hfm := fromMatrix_eq h h2 hlt
  cases hany : (questionOf m).b.any (fun x => decide (x < 0)) with
  | true => rw [hany, hq] at hfm; simp at hfm
  | false =>
    rw [hany, hq] at hfm
    simp only [Bool.false_eq_true, if_false, Except.ok.injEq] at hfm
    subst hfm
    obtain ⟨rows, h1, -, -, h4⟩ :=
      solveQuestion_rows (questionOf_pre h h2 hlt hv hany) (adjCols_iff h h2 ha)
    refine ⟨rows, h1, fun x hx hb hs hlj => ?_⟩
    rw [questionOf_solves h h2 hx] at hs
    exact h4 x ⟨by rw [questionOf_ncols h h2]; exact hx, hb, hs⟩ ((lj_iff h h2).2 hlj)

/-- Non-vacuity of C07. -/
example : ∃ q, fromMatrix [[0, 1, 1, 0, 0], [1, 0, 0, 1, 0]] = .ok q ∧
    solveQuestion q = .ok [[0, 1]] ∧ Spec.Adjacent 5 [[0, 1, 1, 0, 0], [1, 0, 0, 1, 0]] :=
  ⟨_, rfl, by decide +kernel, by
    have := seed_adjacent (v := 5) (by decide) 2 0
    exact this⟩

/-- **C08 is false as stated**: from the seed of `(5, 3, 1, 3)` (accepted by `assert_srg`), a
yielded row violates the system. -/
theorem C08_false : ∃ m q rows x, seed 5 3 1 3 = .ok m ∧ fromMatrix m = .ok q ∧
    solveQuestion q = .ok rows ∧ x ∈ rows ∧ ¬ Spec.Solves q.A q.b x := by
  refine ⟨_, _, _, [0, 0], rfl, rfl, by rfl, by decide +kernel, ?_⟩
  intro h
  have := h 2 (by decide)
  revert this
  decide

/-- **C08**, partial: every yielded row is a 0/1 row satisfying all equations with `≤`.  The
missing half (`=`) is false, see `C08_false`. -/
theorem C08_rows_le_partial {v : Nat} {m : Mat} (h : Spec.Part v m) (h2 : 2 ≤ m.length)
    (hlt : m.length < v) (hv : v ≤ 66) (ha : Spec.Adjacent v m) {q : Question}
    (hq : fromMatrix m = .ok q) {rows : List Vec} (hrows : solveQuestion q = .ok rows) :
    ∀ x ∈ rows, x.length = v - m.length - 1 ∧ Spec.Bin x ∧
      ∀ i < q.A.length, Spec.meet (q.A.getD i []) x ≤ q.b.getD i 0 := by
  have hfm := fromMatrix_eq h h2 hlt
  cases hany : (questionOf m).b.any (fun x => decide (x < 0)) with
  | true => rw [hany, hq] at hfm; simp at hfm
  | false =>
    rw [hany, hq] at hfm
    simp only [Bool.false_eq_true, if_false, Except.ok.injEq] at hfm
    subst hfm
    obtain ⟨rows', h1, -, h3, -⟩ :=
      solveQuestion_rows (questionOf_pre h h2 hlt hv hany) (adjCols_iff h h2 ha)
    rw [hrows] at h1
    cases h1
    intro x hx
    obtain ⟨⟨g1, g2, g3⟩, -⟩ := h3 x hx
    rw [questionOf_ncols h h2] at g1
    refine ⟨g1, g2, fun i hi => ?_⟩
    obtain ⟨h5, h6⟩ := questionOf_rect h h2
    have hm : ((questionOf m).A[i], (questionOf m).b[i]'(by omega)) ∈
        (questionOf m).A.zip (questionOf m).b := by
      rw [List.mem_iff_getElem]
      exact ⟨i, by rw [List.length_zip]; omega, by simp⟩
    have := g3 _ hm
    rw [List.getD_eq_getElem _ _ hi, List.getD_eq_getElem _ _ (by omega),
      meet_eq_dot (by rw [h5 _ (List.getElem_mem _), g1])]
    exact this

/-- **C09.**  The yielded rows are pairwise different (no assumption on equal columns). -/
theorem C09_rows_nodup {v : Nat} {m : Mat} (h : Spec.Part v m) (h2 : 2 ≤ m.length)
    (hlt : m.length < v) (hv : v ≤ 66) {q : Question} (hq : fromMatrix m = .ok q) :
    ∃ rows, solveQuestion q = .ok rows ∧ rows.Nodup ∧
      ∀ x ∈ rows, x.length = v - m.length - 1 ∧ Spec.Bin x := by
  have hfm := fromMatrix_eq h h2 hlt
  cases hany : (questionOf m).b.any (fun x => decide (x < 0)) with
  | true => rw [hany, hq] at hfm; simp at hfm
  | false =>
    rw [hany, hq] at hfm
    simp only [Bool.false_eq_true, if_false, Except.ok.injEq] at hfm
    subst hfm
    obtain ⟨rows, h1, h3, h4⟩ := solveQuestion_total (questionOf_pre h h2 hlt hv hany)
    rw [questionOf_ncols h h2] at h4
    exact ⟨rows, h1, h3, h4⟩

/-- Non-vacuity of C09: a question with two yielded rows. -/
example : ((seed 10 6 3 4 >>= fromMatrix) >>= solveQuestion).map List.length = .ok 2 := by
  decide +kernel

/-- **C10.**  `advance` terminates without an exception on every 0/1 partial matrix. -/
theorem C10_advance_total {v : Nat} {m : Mat} (h : Spec.Part v m) (h2 : 2 ≤ m.length)
    (hlt : m.length < v) (hv : v ≤ 66) : ∃ out, advance m = .ok out ∧
      ∀ m' ∈ out, Spec.Part v m' ∧ m'.length = m.length + 1 ∧ ∃ x, m' = m ++ [Spec.nextRow m x] := by
  refine ⟨_, advance_eq h h2 hlt hv, ?_⟩
  intro m' hm'
  have he := adv_ext h h2 hlt hv hm'
  obtain ⟨x, hx, -⟩ := he.ex
  exact ⟨(he.part h hlt).1, (he.part h hlt).2, x, hx⟩

/-- **C10**, all shapes: a finished matrix is refused with `AssertionError`; a single row and a matrix with more
rows than columns give `IndexError`; all other 0/1 matrices with at most 66 columns are processed. -/
theorem C10_outcome {v : Nat} {m : Mat} (hr : ∀ r ∈ m, r.length = v) (hb : ∀ r ∈ m, Spec.Bin r) (hne : m ≠ [])
    (hv : v ≤ 66) :
    (advance m = .error .assertion ↔ m.length = v) ∧
    (advance m = .error .index ↔ m.length ≠ v ∧ (m.length = 1 ∨ v < m.length)) ∧
    ((∃ out, advance m = .ok out) ↔ 2 ≤ m.length ∧ m.length < v) := by
  have hn : ncols m = v := by
    match m, hr, hne with
    | r :: t, hr, _ => exact hr r (by simp)
  have h1 : m.length = v → advance m = .error .assertion := by
    intro h
    unfold advance solved
    rw [hn, h]
    simp [pyAssert]
  have h0 : 0 < m.length := List.length_pos_iff.2 hne
  have h2 : m.length ≠ v → (m.length = 1 ∨ v < m.length) → advance m = .error .index := by
    intro h hc
    have hs : (!solved m) = true := by
      unfold solved
      rw [hn]
      simpa using h
    have hf : fromMatrix m = .error .index := by
      unfold fromMatrix
      rcases Nat.lt_or_ge 1 m.length with hl | hl
      · match m, hl with
        | r0 :: r1 :: t, _ =>
          have hvk : ∃ k l u, vklu (r0 :: r1 :: t) = .ok (((ncols (r0 :: r1 :: t) : Nat) : Int), k, l, u) :=
            ⟨_, _, _, rfl⟩
          obtain ⟨k, l, u, hvk⟩ := hvk
          rw [hvk, hn]
          have : v ≤ (r0 :: r1 :: t).length := by omega
          simp only [bind, Except.bind, if_pos this]
      · match m, hl, hne with
        | [r0], _, _ => rfl
    unfold advance
    rw [hs, hf]
    rfl
  have h3 : 2 ≤ m.length → m.length < v → ∃ out, advance m = .ok out := fun ha hc =>
    ⟨_, advance_eq ⟨hr, hb, hc.le⟩ ha hc hv⟩
  rcases Nat.lt_trichotomy m.length v with h | h | h
  · rcases Nat.lt_or_ge 1 m.length with hl | hl
    · obtain ⟨out, ho⟩ := h3 hl h
      rw [ho]
      refine ⟨⟨fun hh => by simp at hh, fun hh => by omega⟩, ⟨fun hh => by simp at hh, fun hh => by omega⟩,
        fun _ => ⟨hl, h⟩, fun _ => ⟨_, rfl⟩⟩
    · rw [h2 (by omega) (by omega)]
      refine ⟨⟨fun hh => by simp at hh, fun hh => by omega⟩, ⟨fun _ => by omega, fun _ => rfl⟩,
        fun ⟨_, hh⟩ => by simp at hh, fun hh => by omega⟩
  · rw [h1 h]
    refine ⟨⟨fun _ => h, fun _ => rfl⟩, ⟨fun hh => by simp at hh, fun hh => by omega⟩,
      fun ⟨_, hh⟩ => by simp at hh, fun hh => by omega⟩
  · rw [h2 (by omega) (by omega)]
    refine ⟨⟨fun hh => by simp at hh, fun hh => by omega⟩, ⟨fun _ => by omega, fun _ => rfl⟩,
      fun ⟨_, hh⟩ => by simp at hh, fun hh => by omega⟩

/-- Non-vacuity: all four shapes. -/
example : advance [[0, 1], [1, 0]] = .error .assertion ∧ advance [[0, 1, 0]] = .error .index ∧
    advance [[0, 1], [1, 0], [0, 0]] = .error .index ∧
    advance [[0, 1, 1], [1, 0, 1]] = .ok [[[0, 1, 1], [1, 0, 1], [1, 1, 0]]] := by decide +kernel

/-- Non-vacuity of C10: equal columns not adjacent, asymmetric start, no completion. -/
example : Spec.Part 4 [[0, 1, 0, 1], [1, 1, 1, 1]] ∧ advance [[0, 1, 0, 1], [1, 1, 1, 1]] = .ok [] := by
  refine ⟨⟨by decide, ?_, by decide⟩, by decide +kernel⟩
  intro r hr x hx
  simp only [List.mem_cons, List.not_mem_nil, or_false] at hr
  rcases hr with rfl | rfl <;> revert x <;> decide

/-- **C11.**  If equal unfinished columns are adjacent, every extension is left-justified and
again has its equal unfinished columns adjacent. -/
theorem C11_canonical {v : Nat} {m : Mat} (h : Spec.Part v m) (h2 : 2 ≤ m.length)
    (hlt : m.length < v) (hv : v ≤ 66) (ha : Spec.Adjacent v m) {out : List Mat}
    (hout : advance m = .ok out) : ∀ m' ∈ out, Spec.Adjacent v m' ∧
      Spec.LeftJustified v m (m'.getD m.length []) := by
  rw [advance_eq h h2 hlt hv, Except.ok.injEq] at hout
  subst hout
  intro m' hm'
  refine ⟨adjacent_adv h h2 hlt hv ha hm', ?_⟩
  obtain ⟨x, rfl, -, -, hx⟩ := (adv_ext h h2 hlt hv hm').ex
  have : (m ++ [Spec.nextRow m x]).getD m.length [] = Spec.nextRow m x := by
    simp [List.getD_eq_getElem?_getD]
  rw [this]
  exact (hx ha).1

/-- Non-vacuity of C11: seeds satisfy the hypothesis (all `k`, `l`). -/
example (k l : Int) : Spec.Adjacent 10 [seed0 10 k, seed1 10 k l] := seed_adjacent (by decide) k l

end TDS
