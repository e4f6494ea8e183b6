import Verif.Proof.Checked
import Verif.Proof.Sound

/-! The corrected program against the original: matrices and levels. -/

namespace TDS

instance (k l u : Int) (m : Mat) (r : Vec) : Decidable (Spec.RowOK k l u m r) := by
  unfold Spec.RowOK; infer_instance

/-- The rows below the seed satisfy their conditions exactly. -/
def allOK (k l u : Int) (m : Mat) : Bool :=
  (List.range m.length).all (fun R => decide (R < 2) ||
    decide (Spec.RowOK k l u (m.take R) (m.getD R [])))

theorem allOK_iff {k l u : Int} {m : Mat} : allOK k l u m = true ↔
    ∀ R, 2 ≤ R → R < m.length → Spec.RowOK k l u (m.take R) (m.getD R []) := by
  unfold allOK
  simp only [List.all_eq_true, List.mem_range, Bool.or_eq_true, decide_eq_true_eq]
  constructor
  · intro h R h2 hR
    exact (h R hR).resolve_left (by omega)
  · intro h R hR
    by_cases h2 : R < 2
    · exact Or.inl h2
    · exact Or.inr (h R (by omega) hR)

theorem allOK_snoc {k l u : Int} {m : Mat} {r : Vec} (h2 : 2 ≤ m.length) :
    allOK k l u (m ++ [r]) = (allOK k l u m && decide (Spec.RowOK k l u m r)) := by
  rw [Bool.eq_iff_iff, Bool.and_eq_true, allOK_iff, allOK_iff, decide_eq_true_eq,
    List.length_append, List.length_singleton]
  have hl : ∀ R < m.length, (m ++ [r]).take R = m.take R ∧ (m ++ [r]).getD R [] = m.getD R [] := by
    intro R hR
    refine ⟨List.take_append_of_le_length hR.le, ?_⟩
    rw [List.getD_eq_getElem?_getD, List.getElem?_append_left hR, ← List.getD_eq_getElem?_getD]
  have hlast : (m ++ [r]).take m.length = m ∧ (m ++ [r]).getD m.length [] = r := by
    refine ⟨List.take_left, ?_⟩
    simp [List.getD_eq_getElem?_getD]
  constructor
  · intro h
    refine ⟨fun R hR2 hR => ?_, ?_⟩
    · have := h R hR2 (by omega)
      rwa [(hl R hR).1, (hl R hR).2] at this
    · have := h m.length h2 (by omega)
      rwa [hlast.1, hlast.2] at this
  · rintro ⟨h, hr⟩ R hR2 hR
    by_cases hR' : R < m.length
    · rw [(hl R hR').1, (hl R hR').2]; exact h R hR2 hR'
    · obtain rfl : R = m.length := by omega
      rw [hlast.1, hlast.2]; exact hr

/-- The corrected extension step keeps exactly the extensions whose new row is right. -/
theorem advanceC_eq {v : Nat} {k l u : Int} {m : Mat} (h : Spec.Part v m) (h2 : 2 ≤ m.length)
    (hlt : m.length < v) (hv : v ≤ 66) (ha : Spec.Adjacent v m) (hva : Vals v k l u m)
    (hm : allOK k l u m = true) :
    advanceC m = .ok ((adv m).filter (allOK k l u)) := by
  have hs := solved_eq_false h h2 hlt
  have hfm := fromMatrix_eq h h2 hlt
  cases hany : (questionOf m).b.any (fun x => decide (x < 0)) with
  | true =>
    rw [hany] at hfm
    have e : adv m = [] := by
      unfold adv advance
      rw [hs, hfm]; rfl
    rw [e]
    unfold advanceC
    rw [hs, hfm]; rfl
  | false =>
    rw [hany] at hfm
    simp only [Bool.false_eq_true, if_false] at hfm
    have hpre := questionOf_pre h h2 hlt hv hany
    have hn := questionOf_ncols h h2
    obtain ⟨rows, h1, hC⟩ := solveQuestionC_rows hpre (adjCols_iff h h2 ha)
    obtain ⟨rows', h1', -, hshape⟩ := solveQuestion_total hpre
    rw [h1] at h1'
    cases h1'
    rw [hn] at hshape
    have hadv : adv m = rows.map (fun x => m ++ [Spec.nextRow m x]) := by
      unfold adv advance
      rw [hs, hfm]
      simp only [Bool.not_false, pyAssert_true, ok_bind]
      rw [h1]
      simp only [ok_bind]
      rw [mapM_ok (fun x hx => appendRow_eq h h2 hlt (hshape x hx).1)]
    unfold advanceC
    rw [hs, hfm]
    simp only [Bool.not_false, pyAssert_true, ok_bind]
    rw [hC]
    simp only [ok_bind]
    rw [mapM_ok (fun x hx => appendRow_eq h h2 hlt (hshape x (List.mem_filter.1 hx).1).1), hadv,
      List.filter_map]
    congr 2
    apply List.filter_congr
    intro x hx
    simp only [Function.comp]
    rw [allOK_snoc h2, hm, Bool.true_and, decide_eq_decide,
      ← sat01_iff h h2 hlt (by omega) hva (hshape x hx).1]
    unfold Sat01
    rw [hn]
    exact ⟨fun g => g.2.2, fun g => ⟨(hshape x hx).1, (hshape x hx).2, g⟩⟩

theorem allOK_adv {v : Nat} {k l u : Int} {m m' : Mat} (h : Spec.Part v m) (h2 : 2 ≤ m.length)
    (hlt : m.length < v) (hv : v ≤ 66) (hm : m' ∈ adv m) (ho : allOK k l u m' = true) :
    allOK k l u m = true := by
  obtain ⟨x, rfl, -⟩ := (adv_ext h h2 hlt hv hm).ex
  rw [allOK_snoc h2, Bool.and_eq_true] at ho
  exact ho.1

/-- What the levels keep. -/
def LevelI (v R : Nat) (k l u : Int) (lst : List Mat) : Prop :=
  Level v R lst ∧ ∀ m ∈ lst, Spec.Adjacent v m ∧ Vals v k l u m

theorem LevelI.next {v R : Nat} {k l u : Int} {lst : List Mat} (h : LevelI v R k l u lst)
    (h2 : 2 ≤ R) (hlt : R < v) (hv : v ≤ 66) : LevelI v (R + 1) k l u (nextLevel lst) := by
  refine ⟨h.1.next h2 hlt hv, ?_⟩
  intro m' hm'
  obtain ⟨m, hm, hm'⟩ := mem_nextLevel.1 hm'
  obtain ⟨hp, hl⟩ := h.1 m hm
  obtain ⟨ha, hva⟩ := h.2 m hm
  refine ⟨adjacent_adv hp (by omega) (by omega) hv ha hm', ?_⟩
  obtain ⟨x, rfl, -⟩ := (adv_ext hp (by omega) (by omega) hv hm').ex
  exact vals_snoc (by omega) _ hva

theorem nextLevel_filter {v R : Nat} {k l u : Int} {lst : List Mat} (h : Level v R lst)
    (h2 : 2 ≤ R) (hlt : R < v) (hv : v ≤ 66) :
    (((lst.filter (allOK k l u)).map (fun m => (adv m).filter (allOK k l u))).flatten) =
      (nextLevel lst).filter (allOK k l u) := by
  unfold nextLevel
  induction lst with
  | nil => rfl
  | cons m t ih =>
    have iht := ih (fun m' hm' => h m' (List.mem_cons_of_mem _ hm'))
    obtain ⟨hp, hl⟩ := h m (by simp)
    rw [List.map_cons, List.flatten_cons, List.filter_append, ← iht, List.filter_cons]
    by_cases hm : allOK k l u m = true
    · rw [if_pos hm, List.map_cons, List.flatten_cons]
    · rw [if_neg hm]
      have : (adv m).filter (allOK k l u) = [] := by
        rw [List.filter_eq_nil_iff]
        intro m' hm' ho
        exact hm (allOK_adv hp (by omega) (by omega) hv hm' ho)
      rw [this, List.nil_append]

theorem solveLevelsC_eq {v : Nat} {k l u : Int} (hv : v ≤ 66) (n : Nat) :
    ∀ (R : Nat) (lst : List Mat), LevelI v R k l u lst → 2 ≤ R → R ≤ v → v - R + 1 ≤ n →
    solveLevelsC n (lst.filter (allOK k l u)) =
      .ok ((nextLevel^[v - R] lst).filter (allOK k l u)) := by
  induction n with
  | zero => intro R lst _ _ _ hn; omega
  | succ n ih =>
    intro R lst h h2 hR hn
    have hmem : ∀ m ∈ lst.filter (allOK k l u), m ∈ lst ∧ allOK k l u m = true :=
      fun m hm => List.mem_filter.1 hm
    have hsol : ∀ m ∈ lst.filter (allOK k l u), solved m = decide (R = v) := by
      intro m hm
      obtain ⟨hp, hl⟩ := h.1 m (hmem m hm).1
      have hne : m ≠ [] := by rintro rfl; simp at hl; omega
      unfold solved
      rw [part_ncols hp hne, hl]
      rfl
    by_cases hRv : R = v
    · subst hRv
      rw [Nat.sub_self, Function.iterate_zero, id]
      cases hL : lst.filter (allOK k l u) with
      | nil => rfl
      | cons m0 t =>
        rw [hL] at hsol
        rw [solveLevelsC]
        · have h1 : (m0 :: t).filter solved = m0 :: t := by
            rw [List.filter_eq_self]; intro m hm; rw [hsol m hm]; simp
          have h3 : (m0 :: t).filter (fun m => !solved m) = [] := by
            rw [List.filter_eq_nil_iff]; intro m hm; rw [hsol m hm]; simp
          simp only [h1, h3]
          have : solveLevelsC n ([] : List Mat) = .ok [] := by cases n <;> rfl
          show ((solveLevelsC n [] >>= fun rest => .ok (m0 :: t ++ rest)) : Res (List Mat)) = _
          rw [this]
          simp
        · intro e; exact absurd e (by simp)
    · have hlt : R < v := by omega
      have hrec := ih (R + 1) (nextLevel lst) (h.next h2 hlt hv) (by omega) (by omega) (by omega)
      have hit : nextLevel^[v - R] lst = nextLevel^[v - (R + 1)] (nextLevel lst) := by
        obtain ⟨k, hk⟩ : ∃ k, v - R = k + 1 := ⟨v - R - 1, by omega⟩
        rw [hk, show v - (R + 1) = k by omega, Function.iterate_succ_apply]
      rw [hit]
      have hnext := nextLevel_filter (k := k) (l := l) (u := u) h.1 h2 hlt hv
      cases hL : lst.filter (allOK k l u) with
      | nil =>
        rw [hL] at hnext
        rw [← hnext] at hrec
        rw [← hrec]
        cases n <;> rfl
      | cons m0 t =>
        rw [hL] at hsol hnext hmem
        rw [solveLevelsC]
        · have h1 : (m0 :: t).filter solved = [] := by
            rw [List.filter_eq_nil_iff]; intro m hm; rw [hsol m hm]; simpa using hRv
          have h3 : (m0 :: t).filter (fun m => !solved m) = m0 :: t := by
            rw [List.filter_eq_self]; intro m hm; rw [hsol m hm]; simpa using hRv
          simp only [h1, h3]
          have hm : (m0 :: t).mapM advanceC =
              .ok ((m0 :: t).map (fun m => (adv m).filter (allOK k l u))) := mapM_ok (by
            intro m hm
            obtain ⟨hmem1, hok⟩ := hmem m hm
            obtain ⟨hp, hl⟩ := h.1 m hmem1
            obtain ⟨ha, hva⟩ := h.2 m hmem1
            exact advanceC_eq hp (by omega) (by omega) hv ha hva hok)
          rw [hm]
          simp only [ok_bind]
          rw [hnext, hrec]
          rfl
        · intro e; exact absurd e (by simp)

theorem solveC_eq {v : Nat} {k l u : Int} (hv3 : 3 ≤ v) (hv66 : v ≤ 66)
    (hva : Vals v k l u [seed0 v k, seed1 v k l]) :
    solveC [seed0 v k, seed1 v k l] =
      .ok ((nextLevel^[v - 2] [[seed0 v k, seed1 v k l]]).filter (allOK k l u)) := by
  have hp := seed_part (v := v) (by omega) k l
  have hok : allOK k l u [seed0 v k, seed1 v k l] = true := by
    rw [allOK_iff]
    intro R h2 hR
    simp at hR
    omega
  have hne : ([seed0 v k, seed1 v k l] : Mat) ≠ [] := by simp
  have hlev : LevelI v 2 k l u [[seed0 v k, seed1 v k l]] := by
    refine ⟨seed_level hv3 k l, ?_⟩
    intro m hm
    rw [List.mem_singleton.1 hm]
    exact ⟨seed_adjacent (by omega) k l, hva⟩
  have hlev' := hlev.next (le_refl 2) (by omega) hv66
  have e : nextLevel [[seed0 v k, seed1 v k l]] = adv [seed0 v k, seed1 v k l] := by
    simp [nextLevel]
  rw [e] at hlev'
  unfold solveC
  rw [advanceC_eq hp (by simp) (by simp; omega) hv66 (seed_adjacent (by omega) k l) hva hok]
  simp only [ok_bind]
  rw [solveLevelsC_eq hv66 _ 3 _ hlev' (by omega) (by omega)
    (by rw [part_ncols hp hne]; omega)]
  obtain ⟨j, hj⟩ : ∃ j, v - 2 = j + 1 := ⟨v - 3, by omega⟩
  rw [hj, show v - 3 = j by omega, Function.iterate_succ_apply, e]

/-- A finished matrix whose rows satisfy their conditions exactly is strongly regular. -/
theorem srg_of_allOK {v : Nat} {k l u : Int} (hl : 0 ≤ l) (hlk : l < k) (hkv : k < v)
    (hroom : 2 * k - l ≤ v) {m : Mat} (hadj : Spec.IsAdj v m)
    (htake : [seed0 v k, seed1 v k l] = m.take 2) (hall : allOK k l u m = true) :
    Spec.IsSRG v k l u m := by
  rw [allOK_iff] at hall
  have hlen : m.length = v := hadj.square
  have h0 : m.getD 0 [] = seed0 v k := by
    have : (m.take 2).getD 0 [] = m.getD 0 [] := by
      rw [List.getD_eq_getElem?_getD, List.getElem?_take, if_pos (by omega),
        List.getD_eq_getElem?_getD]
    rw [← this, ← htake]; rfl
  have h1 : m.getD 1 [] = seed1 v k l := by
    have : (m.take 2).getD 1 [] = m.getD 1 [] := by
      rw [List.getD_eq_getElem?_getD, List.getElem?_take, if_pos (by omega),
        List.getD_eq_getElem?_getD]
    rw [← this, ← htake]; rfl
  have hlt : ∀ i j, i < j → j < v →
      Spec.meet (m.getD i []) (m.getD j []) = if Spec.ent m i j = 1 then l else u := by
    intro i j hij hj
    by_cases h2 : 2 ≤ j
    · have hl' : (m.take j).length = j := by rw [List.length_take]; omega
      have := (hall j h2 (by omega)).2 i (by rw [hl']; exact hij)
      have e : (m.take j).getD i [] = m.getD i [] := by
        rw [List.getD_eq_getElem?_getD, List.getElem?_take, if_pos hij, List.getD_eq_getElem?_getD]
      unfold Spec.ent at this ⊢
      rw [hl', e] at this
      exact this
    · obtain rfl : j = 1 := by omega
      obtain rfl : i = 0 := by omega
      have he : Spec.ent m 0 1 = 1 := by
        unfold Spec.ent
        rw [h0, seed0_getD (by omega), pyIdx_nonneg (by omega), if_pos (by omega)]
      rw [if_pos he, h0, h1]
      exact seed_meet hl hlk hkv hroom
  refine ⟨hadj, ?_, ?_⟩
  · intro r hr
    obtain ⟨i, hi, rfl⟩ := List.getElem_of_mem hr
    rw [← List.getD_eq_getElem _ [] hi]
    by_cases h2 : 2 ≤ i
    · exact (hall i h2 hi).1
    · obtain rfl | rfl : i = 0 ∨ i = 1 := by omega
      · rw [h0]; exact seed0_sum (by omega) hkv
      · rw [h1]; exact seed1_sum hl hlk hkv hroom
  · intro i hi j hj hij
    rcases Nat.lt_or_ge i j with h | h
    · exact hlt i j h hj
    · have := hlt j i (by omega) hi
      rw [meet_comm (by rw [(isAdj_row hadj hi).2, (isAdj_row hadj hj).2]), this,
        hadj.sym.sym j (by omega) i (by omega)]

theorem allOK_of_srg {v : Nat} {k l u : Int} {m : Mat} (hs : Spec.IsSRG v k l u m) :
    allOK k l u m = true := by
  rw [allOK_iff]
  have hlen : m.length = v := hs.adj.square
  intro R h2 hR
  have hRm : m.getD R [] ∈ m := by
    rw [List.getD_eq_getElem _ _ hR]; exact List.getElem_mem _
  refine ⟨hs.deg _ hRm, ?_⟩
  intro i hi
  have hl : (m.take R).length = R := by rw [List.length_take]; omega
  rw [hl] at hi ⊢
  have e : (m.take R).getD i [] = m.getD i [] := by
    rw [List.getD_eq_getElem?_getD, List.getElem?_take, if_pos hi, List.getD_eq_getElem?_getD]
  have := hs.meet i (by omega) R (by omega) (by omega)
  unfold Spec.ent at this ⊢
  rw [e]
  exact this

theorem output_seeds {v : Nat} {k l u : Int} (hv3 : 3 ≤ v) (hv66 : v ≤ 66) (hl : 0 ≤ l)
    (hlk : l < k) {out : List Mat} (ho : IsOutput v k l u out) : ∀ m ∈ out,
      Spec.IsAdj v m ∧ [seed0 v k, seed1 v k l] = m.take 2 := by
  intro m hm
  obtain ⟨hadj, hseed⟩ := C03_structure hv3 hv66 (Or.inl ⟨hl, hlk⟩) ho m hm
  rw [seed_eq (by omega)] at hseed
  exact ⟨hadj, by simpa using hseed⟩

end TDS
