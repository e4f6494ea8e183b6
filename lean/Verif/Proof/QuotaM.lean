import Verif.Proof.CheckedM
import Verif.Proof.Quota

/-! The program without the guard on the quota check, against the original: matrices and levels. -/

namespace TDS

/-- The rows below the seed have as many ones as the first row. -/
def regK (m : Mat) : Bool := (m.drop 2).all (fun r => decide (r.sum = kOf m))

theorem kOf_snoc {m : Mat} (h : m ≠ []) (r : Vec) : kOf (m ++ [r]) = kOf m := by
  obtain ⟨a, t, rfl⟩ := List.exists_cons_of_ne_nil h
  rfl

theorem regK_snoc {m : Mat} {r : Vec} (h2 : 2 ≤ m.length) :
    regK (m ++ [r]) = (regK m && decide (r.sum = kOf m)) := by
  have hne : m ≠ [] := by rintro rfl; simp at h2
  unfold regK
  rw [List.drop_append_of_le_length h2, kOf_snoc hne, List.all_append]
  simp

/-- Without the guard a step keeps exactly the extensions whose new row has the right degree. -/
theorem advanceD_rows {v : Nat} {m : Mat} (h : Spec.Part v m) (h2 : 2 ≤ m.length)
    (hlt : m.length < v) (hv : v ≤ 66) :
    advanceD m = .ok ((adv m).filter (fun m' => decide ((m'.getD m.length []).sum = kOf m))) := by
  have hs := solved_eq_false h h2 hlt
  have hfm := fromMatrix_eq h h2 hlt
  cases hany : (questionOf m).b.any (fun x => decide (x < 0)) with
  | true =>
    rw [hany] at hfm
    have e : adv m = [] := by
      unfold adv advance
      rw [hs, hfm]; rfl
    rw [e]
    unfold advanceD
    rw [hs, hfm]; rfl
  | false =>
    rw [hany] at hfm
    simp only [Bool.false_eq_true, if_false] at hfm
    have hpre := questionOf_pre h h2 hlt hv hany
    have hn := questionOf_ncols h h2
    obtain ⟨rows, h1, hD⟩ := solveQuestionD_rows hpre
    obtain ⟨rows', h1', -, hshape⟩ := solveQuestion_total hpre
    rw [h1] at h1'
    cases h1'
    rw [hn] at hshape
    have hadv : adv m = rows.map (fun x => m ++ [Spec.nextRow m x]) := by
      unfold adv advance
      rw [hs, hfm]
      simp only [Bool.not_false, pyAssert_true, ok_bind]
      rw [h1]
      simp only [ok_bind]
      rw [mapM_ok (fun x hx => appendRow_eq h h2 hlt (hshape x hx).1)]
    unfold advanceD
    rw [hs, hfm]
    simp only [Bool.not_false, pyAssert_true, ok_bind]
    rw [hD]
    simp only [ok_bind]
    rw [mapM_ok (fun x hx => appendRow_eq h h2 hlt (hshape x (List.mem_filter.1 hx).1).1), hadv,
      List.filter_map]
    congr 2
    apply List.filter_congr
    intro x _
    simp only [Function.comp]
    have e : (m ++ [Spec.nextRow m x]).getD m.length [] = Spec.nextRow m x := by
      simp [List.getD_eq_getElem?_getD]
    rw [e, nextRow_sum, decide_eq_decide]
    show x.sum = kOf m - (knownOf m).sum ↔ _
    omega

theorem advanceD_eq {v : Nat} {m : Mat} (h : Spec.Part v m) (h2 : 2 ≤ m.length)
    (hlt : m.length < v) (hv : v ≤ 66) (hm : regK m = true) :
    advanceD m = .ok ((adv m).filter regK) := by
  rw [advanceD_rows h h2 hlt hv]
  congr 1
  apply List.filter_congr
  intro m' hm'
  obtain ⟨x, rfl, -⟩ := (adv_ext h h2 hlt hv hm').ex
  rw [regK_snoc h2, hm, Bool.true_and]
  simp [List.getD_eq_getElem?_getD]

theorem nextLevel_regK {v R : Nat} {lst : List Mat} (h : Level v R lst)
    (h2 : 2 ≤ R) (hlt : R < v) (hv : v ≤ 66) :
    (((lst.filter regK).map (fun m => (adv m).filter regK)).flatten) =
      (nextLevel lst).filter regK := by
  unfold nextLevel
  induction lst with
  | nil => rfl
  | cons m t ih =>
    have iht := ih (fun m' hm' => h m' (List.mem_cons_of_mem _ hm'))
    obtain ⟨hp, hl⟩ := h m (by simp)
    rw [List.map_cons, List.flatten_cons, List.filter_append, ← iht, List.filter_cons]
    by_cases hm : regK m = true
    · rw [if_pos hm, List.map_cons, List.flatten_cons]
    · rw [if_neg hm]
      have : (adv m).filter regK = [] := by
        rw [List.filter_eq_nil_iff]
        intro m' hm' ho
        obtain ⟨x, rfl, -⟩ := (adv_ext hp (by omega) (by omega) hv hm').ex
        rw [regK_snoc (by omega), Bool.and_eq_true] at ho
        exact hm ho.1
      rw [this, List.nil_append]

theorem solveLevelsD_eq {v : Nat} (hv : v ≤ 66) (n : Nat) :
    ∀ (R : Nat) (lst : List Mat), Level v R lst → 2 ≤ R → R ≤ v → v - R + 1 ≤ n →
    solveLevelsD n (lst.filter regK) = .ok ((nextLevel^[v - R] lst).filter regK) := by
  induction n with
  | zero => intro R lst _ _ _ hn; omega
  | succ n ih =>
    intro R lst h h2 hR hn
    have hmem : ∀ m ∈ lst.filter regK, m ∈ lst ∧ regK m = true :=
      fun m hm => List.mem_filter.1 hm
    have hsol : ∀ m ∈ lst.filter regK, solved m = decide (R = v) := by
      intro m hm
      obtain ⟨hp, hl⟩ := h m (hmem m hm).1
      have hne : m ≠ [] := by rintro rfl; simp at hl; omega
      unfold solved
      rw [part_ncols hp hne, hl]
      rfl
    by_cases hRv : R = v
    · subst hRv
      rw [Nat.sub_self, Function.iterate_zero, id]
      cases hL : lst.filter regK with
      | nil => rfl
      | cons m0 t =>
        rw [hL] at hsol
        rw [solveLevelsD]
        · have h1 : (m0 :: t).filter solved = m0 :: t := by
            rw [List.filter_eq_self]; intro m hm; rw [hsol m hm]; simp
          have h3 : (m0 :: t).filter (fun m => !solved m) = [] := by
            rw [List.filter_eq_nil_iff]; intro m hm; rw [hsol m hm]; simp
          simp only [h1, h3]
          have : solveLevelsD n ([] : List Mat) = .ok [] := by cases n <;> rfl
          show ((solveLevelsD n [] >>= fun rest => .ok (m0 :: t ++ rest)) : Res (List Mat)) = _
          rw [this]
          simp
        · intro e; exact absurd e (by simp)
    · have hlt : R < v := by omega
      have hrec := ih (R + 1) (nextLevel lst) (h.next h2 hlt hv) (by omega) (by omega) (by omega)
      have hit : nextLevel^[v - R] lst = nextLevel^[v - (R + 1)] (nextLevel lst) := by
        obtain ⟨k, hk⟩ : ∃ k, v - R = k + 1 := ⟨v - R - 1, by omega⟩
        rw [hk, show v - (R + 1) = k by omega, Function.iterate_succ_apply]
      rw [hit]
      have hnext := nextLevel_regK h h2 hlt hv
      cases hL : lst.filter regK with
      | nil =>
        rw [hL] at hnext
        rw [← hnext] at hrec
        rw [← hrec]
        cases n <;> rfl
      | cons m0 t =>
        rw [hL] at hsol hnext hmem
        rw [solveLevelsD]
        · have h1 : (m0 :: t).filter solved = [] := by
            rw [List.filter_eq_nil_iff]; intro m hm; rw [hsol m hm]; simpa using hRv
          have h3 : (m0 :: t).filter (fun m => !solved m) = m0 :: t := by
            rw [List.filter_eq_self]; intro m hm; rw [hsol m hm]; simpa using hRv
          simp only [h1, h3]
          have hm : (m0 :: t).mapM advanceD =
              .ok ((m0 :: t).map (fun m => (adv m).filter regK)) := mapM_ok (by
            intro m hm
            obtain ⟨hmem1, hok⟩ := hmem m hm
            obtain ⟨hp, hl⟩ := h m hmem1
            exact advanceD_eq hp (by omega) (by omega) hv hok)
          rw [hm]
          simp only [ok_bind]
          rw [hnext, hrec]
          rfl
        · intro e; exact absurd e (by simp)

theorem solveD_eq {v : Nat} {k l : Int} (hv3 : 3 ≤ v) (hv66 : v ≤ 66) :
    solveD [seed0 v k, seed1 v k l] =
      .ok ((nextLevel^[v - 2] [[seed0 v k, seed1 v k l]]).filter regK) := by
  have hp := seed_part (v := v) (by omega) k l
  have hne : ([seed0 v k, seed1 v k l] : Mat) ≠ [] := by simp
  have hlev' := (seed_level hv3 k l).next (le_refl 2) (by omega) hv66
  have e : nextLevel [[seed0 v k, seed1 v k l]] = adv [seed0 v k, seed1 v k l] := by
    simp [nextLevel]
  rw [e] at hlev'
  unfold solveD
  rw [advanceD_eq hp (by simp) (by simp; omega) hv66 rfl]
  simp only [ok_bind]
  rw [solveLevelsD_eq hv66 _ 3 _ hlev' (by omega) (by omega)
    (by rw [part_ncols hp hne]; omega)]
  obtain ⟨j, hj⟩ : ∃ j, v - 2 = j + 1 := ⟨v - 3, by omega⟩
  rw [hj, show v - 3 = j by omega, Function.iterate_succ_apply, e]

end TDS
