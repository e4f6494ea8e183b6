import Verif.Proof.Sound
import Verif.Proof.Exact
import Verif.Proof.Blocks

/-! Questions whose columns are all equal are answered without branching. -/

namespace TDS

theorem dictSet_ne (d : List (Nat × Nat)) (c r : Nat) : Bounds.dictSet d c r ≠ [] := by
  cases d with
  | nil => simp [Bounds.dictSet]
  | cons q d =>
    rw [Bounds.dictSet]
    split <;> simp

/-- A row with one element is found. -/
theorem oneElementRowLocs_ne {A : Mat} {r : Vec} {c : Nat} (hr : r ∈ A)
    (hc : npWhere (fun x => x != 0) r = [c]) : Bounds.oneElementRowLocs A ≠ [] := by
  have key : ∀ (l : List (Vec × Nat)) (d : List (Nat × Nat)),
      (d ≠ [] ∨ ∃ p ∈ l, ∃ c, npWhere (fun x => x != 0) p.1 = [c]) →
      l.foldl (fun d p => match npWhere (fun x => x != 0) p.1 with
          | [c] => Bounds.dictSet d c p.2
          | _ => d) d ≠ [] := by
    intro l
    induction l with
    | nil =>
      rintro d (h | ⟨p, hp, -⟩)
      · exact h
      · simp at hp
    | cons p l ih =>
      intro d h
      rw [List.foldl_cons]
      apply ih
      split
      · exact Or.inl (dictSet_ne _ _ _)
      · rename_i hno
        rcases h with h | ⟨q, hq, c, hqc⟩
        · exact Or.inl h
        · rcases List.mem_cons.1 hq with rfl | hq
          · exact absurd hqc (hno c)
          · exact Or.inr ⟨q, hq, c, hqc⟩
  obtain ⟨i, hi, rfl⟩ := List.getElem_of_mem hr
  have := key A.zipIdx [] (Or.inr ⟨(A[i], i), List.mem_zipIdx_iff_getElem?.2
    (List.getElem?_eq_getElem hi), c, hc⟩)
  unfold Bounds.oneElementRowLocs
  rw [Ne, List.map_eq_nil_iff]
  exact this

/-- With at most one column, a stable question has none. -/
theorem fix_cols {W : Vec} {Q : Question} (h : Inv W Q) (hp : reducePass Q = .ok Q)
    (h1 : ncols Q.A ≤ 1) : ncols Q.A = 0 := by
  by_contra h0
  have hn1 : ncols Q.A = 1 := by omega
  obtain ⟨Q1, Q2, Q3, g1, g2, g3, g4⟩ := reducePass_parts hp
  have e1 := reduceCol_eq h g1
  subst e1
  have s2 := eliminate_ok h
  rw [g2] at s2
  have s3 := zeroInB_ok s2.ok.1
  rw [g3] at s3
  have hi3 := s3.ok.1
  have s4 := only1With_ok hi3 (Bounds.oneElementRowLocs_ok Q3.A)
  unfold only1 at g4
  obtain ⟨Q4, g5, g6⟩ := bind_eq_ok.1 g4
  have e4 := checkAfter_eq g6
  subst e4
  have hle := s2.ok.2.1
  have hle' := s3.ok.2.1
  rcases s4.2 Q1 g5 with ⟨hnil, e⟩ | ⟨-, hlt⟩
  · subst e
    obtain ⟨r, hr, hne⟩ := h.cov 0 (by omega)
    have hlen := h.sys.rect r hr
    rw [hn1] at hlen
    obtain ⟨a, rfl⟩ := List.length_eq_one_iff.1 hlen
    refine oneElementRowLocs_ne hr (c := 0) ?_ hnil
    have ha : (a != 0) = true := by simpa using hne
    simp [npWhere, whereFrom, ha]
  · omega

/-- At most one answer if all columns are equal. -/
theorem solveQuestion_single {Q : Question} (h : Pre Q) (h1 : ncols (merged Q).A ≤ 1) :
    ∃ rows, solveQuestion Q = .ok rows ∧ rows.length ≤ 1 := by
  obtain ⟨hs, hf⟩ := reduceLoop_pre h (reduceFuel Q) (by unfold reduceFuel; omega)
  have hv : ∃ o, visit Q = .ok (o, []) ∧ o.length ≤ 1 := by
    unfold visit
    match hr : reduceLoop (reduceFuel Q) Q, hs, hf with
    | .error .noSolution, _, _ => exact ⟨[], rfl, by simp⟩
    | .ok Q', hs, hf =>
      obtain ⟨hfix, hc⟩ := hf Q' rfl
      have hi := hs.ok.1
      have h0 := fix_cols hi hfix (by have := hs.ok.2.1; omega)
      have hu : ¬ Q'.ans.unknown = true := by
        rw [unknown_iff, hi.unk, h0]; simp
      have hw := within_of_final hi hc h0
      refine ⟨[binz (widths Q) Q'.ans.v], ?_, by simp⟩
      simp only [ok_bind]
      rw [if_neg hu, binarize_eq hw hi.lay]
      rfl
  obtain ⟨o, ho, hl⟩ := hv
  refine ⟨o, ?_, hl⟩
  unfold solveQuestion solveTree
  rw [ho]
  simp

theorem merged_bounds_sum {Q : Question} : (merged Q).bounds.sum = ncols Q.A := by
  have := (grps_ok Q).flatten_perm.length_eq
  rw [List.length_flatten, List.length_range, codes_length] at this
  show ((grps Q).map (fun g => (g.2.length : Int))).sum = _
  rw [← this]
  have e : ∀ l : List (Int × List Nat), (l.map (fun g => (g.2.length : Int))).sum =
      (((l.map Prod.snd).map List.length).sum : Nat) := by
    intro l
    induction l with
    | nil => rfl
    | cons a l ih => simp [ih]
  exact e _

/-- No answer if the quota exceeds the number of columns. -/
theorem solveQuestion_overfull {Q : Question} (h : Pre Q) (hq : (ncols Q.A : Int) < Q.quota) :
    solveQuestion Q = .ok [] := by
  by_cases h0 : ncols Q.A = 0
  · refine solveQuestion_zero h0 ?_
    rw [List.any_eq_true]
    refine ⟨Q.quota, (List.of_mem_zip h.ones).2, ?_⟩
    simp only [bne_iff_ne, ne_eq]
    omega
  · have h2 : reduceCol Q = .error .noSolution := by
      unfold reduceCol
      rw [reduceColBody_pre h]
      simp only [ok_bind]
      have hi := merged_inv h
      rcases checkAfter_cases hi with ⟨-, -, g, -⟩ | g
      · exfalso
        have hne : (merged Q).bounds ≠ [] := by
          intro e
          have := merged_bounds_sum (Q := Q)
          rw [e] at this
          simp at this
          omega
        have := g hne
        rw [merged_bounds_sum] at this
        have e : (merged Q).quota = Q.quota := rfl
        omega
      · exact g.1
    have h3 : visit Q = .ok ([], []) := by
      unfold visit reduceFuel reduceLoop reducePass
      rw [h2]; rfl
    unfold solveQuestion solveTree
    rw [h3]
    rfl

theorem merged_single {Q : Question} (h : Pre Q)
    (he : ∀ i < ncols Q.A, ∀ j < ncols Q.A, ∀ r ∈ Q.A, r.getD i 0 = r.getD j 0) :
    ncols (merged Q).A ≤ 1 := by
  have hi := merged_inv h
  by_contra hcon
  obtain ⟨r, hr, hne⟩ := hi.dist 0 (by omega) 1 (by omega) (by omega)
  obtain ⟨r', hr', rfl⟩ := List.mem_map.1 hr
  rw [merged_ncols h] at hcon
  rw [merged_getD (by omega), merged_getD (by omega)] at hne
  exact hne (he _ (firsts_lt (List.getElem_mem _)) _ (firsts_lt (List.getElem_mem _)) r' hr')

theorem length_le_one {α : Type*} {xs : List α} (h : xs.length ≤ 1) {a b : α} (ha : a ∈ xs)
    (hb : b ∈ xs) : a = b := by
  match xs, h with
  | [], _ => simp at ha
  | [c], _ => rw [List.mem_singleton.1 ha, List.mem_singleton.1 hb]

/-- The columns of the question are the unfinished columns. -/
theorem questionOf_same {v : Nat} {m : Mat} (h : Spec.Part v m) (h2 : 2 ≤ m.length)
    (he : ∀ i j, m.length < i → i < v → m.length < j → j < v → Spec.ColEq m i j) :
    ∀ i < ncols (questionOf m).A, ∀ j < ncols (questionOf m).A, ∀ r ∈ (questionOf m).A,
      r.getD i 0 = r.getD j 0 := by
  intro i hi j hj r hr
  rw [questionOf_ncols h h2] at hi hj
  have hn : ncols m = v := by
    obtain ⟨r, m', rfl⟩ := List.exists_cons_of_ne_nil (l := m) (by rintro rfl; simp at h2)
    exact h.rect r (by simp)
  rcases List.mem_append.1 hr with hr | hr
  · obtain ⟨r', hr', rfl⟩ := List.mem_map.1 hr
    have := he (m.length + 1 + i) (m.length + 1 + j) (by omega) (by omega) (by omega) (by omega)
      r' hr'
    simpa [List.getD_eq_getElem?_getD, List.getElem?_drop] using this
  · rw [List.mem_singleton.1 hr, hn]
    simp [List.getD_eq_getElem?_getD, List.getElem?_replicate, hi, hj]

/-- If all unfinished columns agree there is at most one extension. -/
theorem adv_single {v : Nat} {m : Mat} (h : Spec.Part v m) (h2 : 2 ≤ m.length)
    (hlt : m.length < v) (hv : v ≤ 66)
    (he : ∀ i j, m.length < i → i < v → m.length < j → j < v → Spec.ColEq m i j) :
    (adv m).length ≤ 1 := by
  have hs := solved_eq_false h h2 hlt
  have hfm := fromMatrix_eq h h2 hlt
  unfold adv advance
  rw [hs, hfm]
  cases hany : (questionOf m).b.any (fun x => decide (x < 0)) with
  | true => simp
  | false =>
    have hpre := questionOf_pre' h h2 hlt (.of_le hv h2) hany
    obtain ⟨rows, h1, hl⟩ := solveQuestion_single hpre
      (merged_single hpre (questionOf_same h h2 he))
    simp only [Bool.not_false, pyAssert_true, ok_bind, Bool.false_eq_true, if_false]
    rw [h1]
    simp only [ok_bind]
    obtain ⟨rows', h1', -, hshape⟩ := solveQuestion_total hpre
    rw [h1] at h1'
    cases h1'
    rw [questionOf_ncols h h2] at hshape
    rw [mapM_ok (fun x hx => appendRow_eq h h2 hlt (hshape x hx).1)]
    simpa using hl

/-- If more ones are missing than columns are left there is no extension. -/
theorem adv_overfull {v : Nat} {m : Mat} (h : Spec.Part v m) (h2 : 2 ≤ m.length)
    (hlt : m.length < v) (hv : v ≤ 66)
    (hq : ((v - m.length - 1 : Nat) : Int) < kOf m - (knownOf m).sum) : adv m = [] := by
  have hs := solved_eq_false h h2 hlt
  have hfm := fromMatrix_eq h h2 hlt
  unfold adv advance
  rw [hs, hfm]
  cases hany : (questionOf m).b.any (fun x => decide (x < 0)) with
  | true => simp
  | false =>
    have hpre := questionOf_pre' h h2 hlt (.of_le hv h2) hany
    have h1 := solveQuestion_overfull hpre (by rw [questionOf_ncols h h2]; exact hq)
    simp only [Bool.not_false, pyAssert_true, ok_bind, Bool.false_eq_true, if_false]
    rw [h1]
    rfl

end TDS
