import Verif.Proof.Admits

/-! C15–C18: what happens inside `solve_question`. -/

namespace TDS

/-- Questions that can occur inside `solve_question` started on `Q₀`, after the first call of
`reduce_col`: closed under the four simplification steps in any order and under forking.  (The
code uses one particular order.) -/
inductive Reach (Q₀ : Question) : Question → Prop
  | first {Q} : reduceCol Q₀ = .ok Q → Reach Q₀ Q
  | reduceCol {Q Q'} : Reach Q₀ Q → reduceCol Q = .ok Q' → Reach Q₀ Q'
  | eliminate {Q Q'} : Reach Q₀ Q → eliminate Q = .ok Q' → Reach Q₀ Q'
  | zeroInB {Q Q'} : Reach Q₀ Q → zeroInB Q = .ok Q' → Reach Q₀ Q'
  | only1 {Q Q'} : Reach Q₀ Q → only1 Q = .ok Q' → Reach Q₀ Q'
  | fork {Q Q' qs} : Reach Q₀ Q → forkEnum Q = .ok qs → Q' ∈ qs → Reach Q₀ Q'

theorem StepOK.inv_of_eq {W : Vec} {Q Q' : Question} {r : Res Question} (h : StepOK W Q r)
    (e : r = .ok Q') : Inv W Q' := by subst e; exact h.ok.1

theorem forkEnum_parts {Q : Question} {qs : List Question} (h : forkEnum Q = .ok qs) :
    checkAfter Q = .ok Q ∧ 0 < Q.ans.unknownLoc.length := by
  unfold forkEnum at h
  rw [bind_eq_ok] at h
  obtain ⟨Q', hc, h⟩ := h
  have := checkAfter_eq hc
  subst this
  refine ⟨hc, ?_⟩
  simp only [] at h
  rw [bind_eq_ok] at h
  obtain ⟨u, hu, -⟩ := h
  unfold pyAssert at hu
  split at hu
  · next hd => simpa using hd
  · simp at hu

theorem reduceCol_pre {Q : Question} (h : Pre Q) : reduceCol Q = checkAfter (merged Q) := by
  unfold TDS.reduceCol
  rw [reduceColBody_pre h]
  rfl

theorem Reach.inv {Q₀ Q : Question} (h₀ : Pre Q₀) (h : Reach Q₀ Q) : Inv (widths Q₀) Q := by
  induction h with
  | first e =>
    rw [reduceCol_pre h₀] at e
    exact (checkAfter_ok (merged_inv h₀)).inv_of_eq e
  | reduceCol _ e ih => exact (reduceCol_ok ih).inv_of_eq e
  | eliminate _ e ih => exact (eliminate_ok ih).inv_of_eq e
  | zeroInB _ e ih => exact (zeroInB_ok ih).inv_of_eq e
  | only1 _ e ih => exact (only1_ok ih).inv_of_eq e
  | fork _ e hm ih =>
    obtain ⟨hc, hu⟩ := forkEnum_parts e
    rw [unknownLoc_length, ih.unk] at hu
    obtain ⟨j, hj, he⟩ := forkEnum_eq ih hc hu
    rw [e] at he
    cases he
    obtain ⟨q, hq, rfl⟩ := List.mem_map.1 hm
    exact ((fork_spec ih hj).inv q hq).1

/-- The question of a partial matrix. -/
theorem pre_of_fromMatrix {v : Nat} {m : Mat} (h : Spec.Part v m) (h2 : 2 ≤ m.length)
    (hlt : m.length < v) (hv : v ≤ 66) {Q : Question} (he : fromMatrix m = .ok Q) :
    Pre Q ∧ Q = questionOf m := by
  rw [fromMatrix_eq h h2 hlt] at he
  split at he
  · simp at he
  · next hb =>
    cases he
    exact ⟨questionOf_pre h h2 hlt hv (by simpa using hb), rfl⟩

theorem asg_solY_back {W : Vec} {Q : Question} {ids : List Nat} {w : Nat → Int} (h : Inv W Q)
    (hnd : ids.Nodup) (hlt : ∀ c ∈ ids, c < ncols Q.A)
    (hw : ∀ c ∈ ids, 0 ≤ w c) (hwb : ∀ c ∈ ids, w c ≤ Q.bounds.getD c 0) {y : Vec}
    (hs : SolY W (asg Q ids w) y) : SolY W Q y := by
  obtain ⟨x', hx', hy, hW⟩ := hs
  obtain ⟨x, h1, h2, h3⟩ := exists_undelete ids w (ncols Q.A) 0 x' (by
    rw [hx'.len, asg_ncols h]
    exact keepIdx_length (by simp))
  have hxw : ∀ c ∈ ids, x.getD c 0 = w c := fun c hc => h3 c hc (Nat.zero_le _) (by
    have := hlt c hc; omega)
  have h2' : npDelete ids x = x' := h2
  refine ⟨x, ⟨h1, ?_, ?_, ?_⟩, ?_, hW⟩
  · intro p hp
    have e1 := asg_dot h hnd hlt h1 hxw (List.of_mem_zip hp).1
    have e2 := hx'.eq _ (by rw [asg_zip]; exact List.mem_map_of_mem hp)
    simp only [h2'] at e1 e2
    omega
  · refine forall₂_undelete (ids := ids) 0 0 x Q.bounds 0 (by rw [h1, h.blen]) ?_ ?_
    · have := hx'.bd
      rw [← h2'] at this; exact this
    · intro c hc _ _
      rw [Nat.sub_zero, hxw c hc]
      exact ⟨hw c hc, hwb c hc⟩
  · have e1 := sum_npDelete hnd (l := x) (by rw [h1]; exact hlt)
    have e2 : (ids.map (fun c => x.getD c 0)).sum = (ids.map w).sum := by
      rw [List.map_congr_left hxw]
    have e3 := hx'.sum
    rw [← h2'] at e3
    have e4 : (asg Q ids w).quota = Q.quota - (ids.map w).sum := rfl
    omega
  · rw [hy, ← h2', asg_fill h hw h1 hxw]

theorem asg_v_set {Q : Question} {j p : Nat} (hp : Q.ans.unknownLoc[j]? = some p) (q : Int) :
    (asg Q [j] (fun _ => q)).ans = { Q.ans with v := Q.ans.v.set p q } := by
  have h := (set_assignF (fun _ => none) Q.ans.v 0 0 j q p (Nat.zero_le _) hp).2
  rw [assignF_none, Nat.sub_zero] at h
  unfold asg
  simp only [h]
  congr 2
  funext c
  unfold asgG upd
  by_cases hc : c = j <;> simp [hc]

theorem reduceLoop_more {Q : Question} {n : Nat} (h : reduceLoop n Q ≠ .error .fuel) (k : Nat) :
    reduceLoop (n + k) Q = reduceLoop n Q := by
  induction n generalizing Q with
  | zero => exact absurd rfl h
  | succ n ih =>
    rw [show n + 1 + k = (n + k) + 1 by omega]
    rw [reduceLoop] at h ⊢
    rw [reduceLoop]
    cases hp : reducePass Q with
    | error e => rfl
    | ok Q' =>
      rw [hp] at h
      simp only [ok_bind] at h ⊢
      split
      · rfl
      · next hne =>
        rw [if_neg hne] at h
        exact ih h

section

variable {v : Nat} {m : Mat} {Q₀ Q : Question} (hm : Spec.Part v m) (h2 : 2 ≤ m.length)
  (hlt : m.length < v) (hv : v ≤ 66) (h₀ : fromMatrix m = .ok Q₀)

include hm h2 hlt hv h₀

/-- **C15.**  On a question met inside `solve_question`, each of the four simplification steps
either returns a question that admits everything the old one did, or raises `NoSolution` and the
question admits nothing. -/
theorem C15_steps (hr : Reach Q₀ Q) (f : Question → Res Question)
    (hf : f ∈ [reduceCol, eliminate, zeroInB, only1]) :
    (∃ Q', f Q = .ok Q' ∧ ∀ y, Spec.Admits Q y → Spec.Admits Q' y) ∨
    (f Q = .error .noSolution ∧ ∀ y, ¬ Spec.Admits Q y) := by
  have hinv := hr.inv (pre_of_fromMatrix hm h2 hlt hv h₀).1
  have hs : StepOK (widths Q₀) Q (f Q) := by
    simp only [List.mem_cons, List.not_mem_nil, or_false] at hf
    rcases hf with rfl | rfl | rfl | rfl
    · exact reduceCol_ok hinv
    · exact eliminate_ok hinv
    · exact zeroInB_ok hinv
    · exact only1_ok hinv
  cases he : f Q with
  | ok Q' =>
    rw [he] at hs
    left
    refine ⟨Q', rfl, fun y hy => ?_⟩
    rw [admits_iff hinv] at hy
    rw [admits_iff hs.ok.1]
    exact hs.ok.2.2.1 y hy
  | error e =>
    rw [he] at hs
    right
    cases e with
    | noSolution => exact ⟨rfl, fun y hy => hs y ((admits_iff hinv).1 hy)⟩
    | _ => exact absurd hs (by simp [StepOK])

/-- **C15**, first call of `reduce_col`: the 0/1 solutions of the initial question become bucket
sums.  Needs equal columns to be adjacent, as they are in every matrix the search visits. -/
theorem C15_first (ha : Spec.Adjacent v m) :
    (∃ Q', reduceCol Q₀ = .ok Q' ∧ ∀ z, Spec.Admits Q₀ z → Spec.Admits Q'
      ((List.range Q'.ans.loc.length).map (Spec.bucketSum Q'.ans.loc Q'.ans.len z))) ∨
    (reduceCol Q₀ = .error .noSolution ∧ ∀ z, ¬ Spec.Admits Q₀ z) := by
  obtain ⟨hp, rfl⟩ := pre_of_fromMatrix hm h2 hlt hv h₀
  have hac := adjCols_iff hm h2 ha
  rw [reduceCol_pre hp]
  have hinv := merged_inv hp
  have hkey : ∀ z, Spec.Admits (questionOf m) z →
      SolY (widths (questionOf m)) (merged (questionOf m)) (counts (questionOf m) z) := by
    intro z hz
    have hz' := (admits_pre hp).1 hz
    have hsol := counts_sol hp hz'
    refine ⟨_, hsol, (merged_fill hp hsol.len).symm, ?_⟩
    rw [widths_eq hp hac]
    exact (counts_bd (Q := questionOf m) hz'.2.1).imp (fun _ _ h => h.2)
  rcases checkAfter_cases hinv with ⟨hc, -⟩ | ⟨hc, hno⟩
  · left
    refine ⟨_, hc, fun z hz => ?_⟩
    rw [bucketSum_counts hp hac ((admits_pre hp).1 hz).1, admits_iff hinv]
    exact hkey z hz
  · right
    exact ⟨hc, fun z hz => hno _ (hkey z hz)⟩

/-- **C17.**  `fork_enum` picks one unknown bucket `p` and gives it increasing values in its
children, changing nothing else in the answer.  The bucket is the first one with the least bound:
with `j` unknown buckets before `p`, its bound is `Q.bounds[j]`.  What the question admits is admitted by exactly one
child, and what a child admits the question admits.  If `fork_enum` raises `NoSolution`, nothing is
admitted. -/
theorem C17_fork (hr : Reach Q₀ Q) (hu : -1 ∈ Q.ans.v) :
    (∃ qs p j, forkEnum Q = .ok qs ∧ Q.ans.v.getD p 0 = -1 ∧ p < Q.ans.v.length ∧
      (Q.ans.v.take p).count (-1) = j ∧ (∀ y ∈ Q.bounds, Q.bounds.getD j 0 ≤ y) ∧
      (∀ n < j, Q.bounds.getD j 0 < Q.bounds.getD n 0) ∧
      (qs.map (fun q => q.ans.v.getD p 0)).Pairwise (· < ·) ∧
      (∀ q ∈ qs, 0 ≤ q.ans.v.getD p 0 ∧
        q.ans = { Q.ans with v := Q.ans.v.set p (q.ans.v.getD p 0) }) ∧
      (∀ y, Spec.Admits Q y → ∃ q ∈ qs, Spec.Admits q y ∧
        ∀ q' ∈ qs, Spec.Admits q' y → q' = q) ∧
      (∀ q ∈ qs, ∀ y, Spec.Admits q y → Spec.Admits Q y)) ∨
    (forkEnum Q = .error .noSolution ∧ ∀ y, ¬ Spec.Admits Q y) := by
  have hinv := hr.inv (pre_of_fromMatrix hm h2 hlt hv h₀).1
  have hpos : 0 < ncols Q.A := by
    rw [← hinv.unk]
    unfold unk
    rw [List.countP_pos_iff]
    exact ⟨-1, hu, by simp [UNKNOWN]⟩
  rcases checkAfter_cases hinv with ⟨hc, -⟩ | ⟨hc, hno⟩
  · left
    obtain ⟨j, hj, hmin, he⟩ := forkEnum_eq' hinv hc hpos
    have hspec := fork_spec hinv hj
    have hjl : j < Q.ans.unknownLoc.length := by rw [unknownLoc_length, hinv.unk]; exact hj
    obtain ⟨p, hp⟩ : ∃ p, Q.ans.unknownLoc[j]? = some p := ⟨_, List.getElem?_eq_getElem hjl⟩
    have hpm : p ∈ Q.ans.unknownLoc := List.mem_of_getElem? hp
    unfold Answer.unknownLoc at hpm
    rw [mem_npWhere] at hpm
    have hpv : Q.ans.v.getD p 0 = -1 := by simpa [UNKNOWN] using hpm.2
    have hans : ∀ q : Int, (asg Q [j] (fun _ => q)).ans = { Q.ans with v := Q.ans.v.set p q } :=
      asg_v_set hp
    have hget : ∀ q : Int, (asg Q [j] (fun _ => q)).ans.v.getD p 0 = q := by
      intro q
      rw [hans q, List.getD_eq_getElem _ _ (by simpa using hpm.1)]
      simp
    have hval : ∀ q ∈ forkVals Q j, 0 ≤ q ∧ q ≤ Q.bounds.getD j 0 := by
      intro q hq
      unfold forkVals at hq
      rw [List.mem_filter, mem_pyRange] at hq
      omega
    refine ⟨_, p, j, he, hpv, hpm.1, ?_, (npArgmin_spec hmin).1, (npArgmin_spec hmin).2, ?_, ?_, ?_,
      ?_⟩
    · have := (whereFrom_count hp).2
      rw [Nat.sub_zero] at this
      rw [← this]
      rfl
    · rw [List.map_map]
      have : ((fun q : Question => q.ans.v.getD p 0) ∘ fun q => asg Q [j] (fun _ => q)) = id := by
        funext q; exact hget q
      rw [this, List.map_id]
      exact hspec.inc
    · intro q hq
      obtain ⟨a, ha, rfl⟩ := List.mem_map.1 hq
      rw [hget a]
      exact ⟨(hval a ha).1, hans a⟩
    · intro y hy
      obtain ⟨a, ha, hya⟩ := hspec.solY y ((admits_iff hinv).1 hy)
      refine ⟨_, List.mem_map_of_mem ha, (admits_iff (hspec.inv a ha).1).2 hya, ?_⟩
      have hyp : ∀ b ∈ forkVals Q j, Spec.Admits (asg Q [j] (fun _ => b)) y → y.getD p 0 = b := by
        intro b hb hadm
        have h1 := hadm.known p (by rw [hadm.len, hans b]; simpa using hpm.1) (by
          rw [hget b]; have := (hval b hb).1; omega)
        rw [h1, hget b]
      intro q' hq' hadm
      obtain ⟨b, hb, rfl⟩ := List.mem_map.1 hq'
      have e1 := hyp b hb hadm
      have e2 := hyp a ha ((admits_iff (hspec.inv a ha).1).2 hya)
      rw [e1] at e2
      rw [e2]
    · intro q hq y hy
      obtain ⟨a, ha, rfl⟩ := List.mem_map.1 hq
      rw [admits_iff (hspec.inv a ha).1] at hy
      rw [admits_iff hinv]
      refine asg_solY_back hinv (by simp) (by simpa using hj) ?_ ?_ hy
      · intro c _; exact (hval a ha).1
      · intro c hc
        rw [List.mem_singleton] at hc
        subst hc; exact (hval a ha).2
  · right
    refine ⟨?_, fun y hy => hno y ((admits_iff hinv).1 hy)⟩
    unfold forkEnum
    rw [hc]
    rfl

/-- **C18.**  The simplification loop, on the initial question or any later one, stops after at
most `C + 2` passes, either with `NoSolution` or in a state another pass does not change; more
passes make no difference. -/
theorem C18_loop (hr : Q = Q₀ ∨ Reach Q₀ Q) :
    ((∃ Q', reduceLoop (ncols Q.A + 2) Q = .ok Q' ∧ reducePass Q' = .ok Q') ∨
      reduceLoop (ncols Q.A + 2) Q = .error .noSolution) ∧
    ∀ n, ncols Q.A + 2 ≤ n → reduceLoop n Q = reduceLoop (ncols Q.A + 2) Q := by
  obtain ⟨hp, -⟩ := pre_of_fromMatrix hm h2 hlt hv h₀
  have hl : ∃ Q1, LoopOK (widths Q₀) Q1 (reduceLoop (ncols Q.A + 2) Q) := by
    rcases hr with rfl | hr
    · exact ⟨_, reduceLoop_pre hp _ (Nat.le_refl _)⟩
    · exact ⟨Q, reduceLoop_ok _ (hr.inv hp) (Nat.le_refl _)⟩
  obtain ⟨Q1, hl⟩ := hl
  constructor
  · cases he : reduceLoop (ncols Q.A + 2) Q with
    | ok Q' => exact Or.inl ⟨Q', rfl, (hl.2 Q' he).1⟩
    | error e =>
      have hs := hl.1
      rw [he] at hs
      cases e with
      | noSolution => exact Or.inr rfl
      | _ => exact absurd hs (by simp [StepOK])
  · intro n hn
    obtain ⟨k, rfl⟩ : ∃ k, n = ncols Q.A + 2 + k := ⟨n - (ncols Q.A + 2), by omega⟩
    apply reduceLoop_more
    intro he
    have hs := hl.1
    rw [he] at hs
    exact absurd hs (by simp [StepOK])

end

/-- The first question of the search for the Petersen graph, after `reduce_col`. -/
def petersenQ : Question :=
  ⟨[[1, 0, 0], [0, 1, 0], [1, 1, 1]], [0, 0, 2], 2, [1, 2, 4], ⟨[-1, -1, -1], [0, 1, 3], 7⟩⟩

/-- Non-vacuity: a reachable question with unknowns and an admissible assignment. -/
example : ∃ Q₀, (seed 10 3 0 1 >>= fromMatrix) = .ok Q₀ ∧ Reach Q₀ petersenQ ∧ -1 ∈ petersenQ.ans.v ∧
    Spec.Admits petersenQ [0, 0, 2] := by
  refine ⟨⟨[[1, 0, 0, 0, 0, 0, 0], [0, 1, 1, 0, 0, 0, 0], [1, 1, 1, 1, 1, 1, 1]],
    [0, 0, 2], 2, [1, 1, 1, 1, 1, 1, 1],
    ⟨[-1, -1, -1, -1, -1, -1, -1], [0, 1, 2, 3, 4, 5, 6], 7⟩⟩, by decide +kernel,
    Reach.first (by decide +kernel), by decide, ?_⟩
  refine ⟨by decide, by decide, by decide, by decide, ?_, by decide, by decide⟩
  unfold Spec.Solves
  decide

/-- Non-vacuity: an inner question of the search on (16,6,2,2) that forks in two. -/
example : (seed 16 6 2 2 >>= fromMatrix >>= reduceLoop 20 >>= forkEnum).map
    (List.map (fun q => q.ans.v)) = .ok [[0, -1, -1, -1], [1, -1, -1, -1]] := by
  decide +kernel

/-! ### C16 -/

theorem assignAll_perm {ul : List Nat} (hul : ul.Nodup) {L L' : List (Nat × Int)}
    (hp : List.Perm L L') (hnd : (L.map Prod.fst).Nodup) (v : Vec) :
    assignAll ul v L = assignAll ul v L' := by
  induction hp generalizing v with
  | nil => rfl
  | cons p _ ih =>
    obtain ⟨c, x⟩ := p
    rw [List.map_cons, List.nodup_cons] at hnd
    unfold assignAll
    cases pyGet ul c with
    | error e => rfl
    | ok p => exact ih hnd.2 _
  | swap p q l =>
    obtain ⟨c, x⟩ := p
    obtain ⟨d, y⟩ := q
    have hne : d ≠ c := by
      simp at hnd
      intro h; exact hnd.1.1 h
    unfold assignAll
    unfold assignAll
    unfold pyGet
    cases hc : ul[c]? with
    | none => cases hd : ul[d]? <;> rfl
    | some i =>
      cases hd : ul[d]? with
      | none => rfl
      | some j =>
        simp only [ok_bind]
        congr 1
        apply List.set_comm
        intro hij
        subst hij
        apply hne
        have h1 := (List.getElem?_eq_some_iff.1 hc)
        have h2 := (List.getElem?_eq_some_iff.1 hd)
        obtain ⟨h1, e1⟩ := h1
        obtain ⟨h2, e2⟩ := h2
        exact (List.Nodup.getElem_inj_iff hul).1 (by rw [e1, e2])
  | trans h1 _ ih1 ih2 =>
    rw [ih1 hnd, ih2 ((h1.map _).nodup_iff.1 hnd)]

theorem only1With_perm {Q : Question} {rcs rcs' : List (Nat × Nat)} (hp : List.Perm rcs' rcs)
    (hnd : (rcs.map Prod.snd).Nodup) : only1With rcs' Q = only1With rcs Q := by
  have hnd' : (rcs'.map Prod.snd).Nodup := (hp.map _).nodup_iff.2 hnd
  have e1 : rcs'.isEmpty = rcs.isEmpty := by
    rw [Bool.eq_iff_iff, List.isEmpty_iff, List.isEmpty_iff]
    constructor
    · intro h; subst h; exact hp.nil_eq.symm
    · intro h; subst h; exact hp.eq_nil
  have e2 : ∀ row : Vec, dot ((rcs'.map Prod.snd).map (fun c => row.getD c 0))
      (rcs'.map (fun rc => Q.b.getD rc.1 0)) = dot ((rcs.map Prod.snd).map (fun c => row.getD c 0))
      (rcs.map (fun rc => Q.b.getD rc.1 0)) := by
    intro row
    rw [List.map_map, List.map_map, dot_maps, dot_maps]
    exact (hp.map _).sum_eq
  have e3 : rcs'.any (fun rc => decide (Q.b.getD rc.1 0 > Q.bounds.getD rc.2 0)) =
      rcs.any (fun rc => decide (Q.b.getD rc.1 0 > Q.bounds.getD rc.2 0)) := hp.any_eq
  have e4 : (rcs'.map (fun rc => Q.b.getD rc.1 0)).sum =
      (rcs.map (fun rc => Q.b.getD rc.1 0)).sum := (hp.map _).sum_eq
  have e5 : assignAll Q.ans.unknownLoc Q.ans.v (rcs'.map (fun rc => (rc.2, Q.b.getD rc.1 0))) =
      assignAll Q.ans.unknownLoc Q.ans.v (rcs.map (fun rc => (rc.2, Q.b.getD rc.1 0))) := by
    apply assignAll_perm (npWhere_nodup _ _) (hp.map _)
    rw [List.map_map]; exact hnd'
  have e6 : ∀ l : Vec, npDelete (rcs'.map Prod.snd) l = npDelete (rcs.map Prod.snd) l :=
    npDelete_congr (fun c => (hp.map Prod.snd).mem_iff)
  have e7 : (fun row : Vec => i8 (dot ((rcs'.map Prod.snd).map (fun c => row.getD c 0))
      (rcs'.map (fun rc => Q.b.getD rc.1 0)))) = fun row : Vec =>
        i8 (dot ((rcs.map Prod.snd).map (fun c => row.getD c 0))
      (rcs.map (fun rc => Q.b.getD rc.1 0))) := by
    funext row; rw [e2]
  have e8 : (npDelete (rcs'.map Prod.snd) : Vec → Vec) = npDelete (rcs.map Prod.snd) := funext e6
  unfold only1With
  simp only [e1, e3, e4, e5, e7, e8]

/-- **C16.**  Whatever order the Python set is iterated in, `only_1_element_in_row` does the same.
No assumption on the question is needed. -/
theorem C16_set_order (Q : Question) (rcs : List (Nat × Nat))
    (hp : List.Perm rcs (Bounds.oneElementRowLocs Q.A)) :
    (do checkAfter (← only1With rcs Q)) = only1 Q := by
  unfold only1
  rw [only1With_perm hp (Bounds.oneElementRowLocs_ok Q.A).nodup]

/-- Non-vacuity: a question whose set has two elements. -/
example : Bounds.oneElementRowLocs [[0, 0, 1], [0, 1, 0], [1, 1, 1]] = [(0, 2), (1, 1)] ∧
    List.Perm [(1, 1), (0, 2)] (Bounds.oneElementRowLocs [[0, 0, 1], [0, 1, 0], [1, 1, 1]]) := by
  decide +kernel

end TDS
