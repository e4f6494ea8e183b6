import Verif.Proof.Limit
import Verif.Props.Rows

/-! C51: the size limit of C01, C07 and C08.  With 64 rows or more the columns of the system have
more than 64 entries, and their 64-bit codes no longer depend on the first ones. -/

namespace TDS

/-- 64 rows of 67 columns: a first row with the given last two entries, and zeros below. -/
def tallMat (c x y : Int) : Mat :=
  (0 :: c :: List.replicate 63 0 ++ [x, y]) :: List.replicate 63 (List.replicate 67 0)

/-- **C51, completeness.**  For `v = 67` a row that solves the equations and is justified can be
missed: the columns 65 and 66 of this matrix differ in the first row but are merged. -/
theorem C51_row_missed : Spec.Part 67 (tallMat 0 1 0) ∧ (tallMat 0 1 0).length = 64 ∧
    Spec.Adjacent 67 (tallMat 0 1 0) ∧ ¬ Spec.ColEq (tallMat 0 1 0) 65 66 ∧
    ∃ q, fromMatrix (tallMat 0 1 0) = .ok q ∧ solveQuestion q = .ok [[0, 0]] ∧
      Spec.Solves q.A q.b [0, 1] ∧
      Spec.LeftJustified 67 (tallMat 0 1 0) (Spec.nextRow (tallMat 0 1 0) [0, 1]) := by
  have hne : ¬ Spec.ColEq (tallMat 0 1 0) 65 66 := by
    intro h
    have := h (0 :: 0 :: List.replicate 63 0 ++ [1, 0]) (by simp [tallMat])
    revert this
    decide
  refine ⟨⟨by decide +kernel, by unfold Spec.Bin; decide +kernel, by decide⟩, by decide, ?_, hne,
    questionOf (tallMat 0 1 0), by decide +kernel, by decide +kernel, ?_, ?_⟩
  · intro i j k h1 h2 h3 h4
    have : (tallMat 0 1 0).length = 64 := by decide
    omega
  · unfold Spec.Solves
    decide +kernel
  · intro i j h1 h2 h3 h4
    have : (tallMat 0 1 0).length = 64 := by decide
    obtain rfl : i = 65 := by omega
    obtain rfl : j = 66 := by omega
    exact absurd h4 hne

/-- **C51, soundness.**  For `v = 67` a row can be returned that meets an earlier row too often. -/
theorem C51_row_wrong : Spec.Part 67 (tallMat 1 0 1) ∧ (tallMat 1 0 1).length = 64 ∧
    Spec.Adjacent 67 (tallMat 1 0 1) ∧
    ∃ q, fromMatrix (tallMat 1 0 1) = .ok q ∧ solveQuestion q = .ok [[1, 1]] ∧
      q.b.getD 0 0 < Spec.meet (q.A.getD 0 []) [1, 1] := by
  refine ⟨⟨by decide +kernel, by unfold Spec.Bin; decide +kernel, by decide⟩, by decide, ?_,
    questionOf (tallMat 1 0 1), by decide +kernel, by decide +kernel, by decide +kernel⟩
  intro i j k h1 h2 h3 h4
  have : (tallMat 1 0 1).length = 64 := by decide
  omega

/-- The cocktail party graph on `2 * n` vertices: everybody is adjacent to all but their partner. -/
def cocktail (n : Nat) : Mat :=
  (List.range (2 * n)).map (fun i => (List.range (2 * n)).map (fun j =>
    if i = j ∨ i + j + 1 = 2 * n then 0 else 1))

theorem cocktail_take {n R : Nat} (h : R ≤ 2 * n) :
    (cocktail n).take R = matOf (2 * n) (cp n) R := matOf_take h

/-- The cocktail party graph is strongly regular for every `n`. -/
theorem C51_cocktail (n : Nat) : Spec.IsSRG (2 * n) (((2 * n : Nat) : Int) - 2)
    (((2 * n : Nat) : Int) - 4) (((2 * n : Nat) : Int) - 2) (cocktail n) := isSRG_of_arr cp_arr

theorem cocktail_step2 : adv ((cocktail 34).take 2) = [(cocktail 34).take 3] := by decide +kernel

theorem cocktail_step3 : adv ((cocktail 34).take 3) = [(cocktail 34).take 4] := by decide +kernel

theorem cocktail_step65 : adv ((cocktail 34).take 65) = [] := by decide +kernel

/-- **C51, a graph is missed.**  The parameters (68, 66, 64, 66) pass the check of the command line
and belong to a strongly regular graph, but no result of the search is strongly regular. -/
theorem C51_graph_missed : Spec.IsSRG 68 66 64 66 (cocktail 34) ∧
    Utils.assertSrg 68 66 64 66 = .ok () ∧
    ∀ out, IsOutput 68 66 64 66 out → ∀ m ∈ out, ¬ Spec.IsSRG 68 66 64 66 m := by
  refine ⟨C51_cocktail 34, by decide, ?_⟩
  rintro out ⟨s, hs, ho⟩ m hm hsrg
  have hc := solve_chain ho m hm
  have ha : Arr (2 * 34) (((2 * 34 : Nat) : Int) - 2) 64 66 (Spec.ent m) := arr_of_isSRG hsrg
  have hsq : Spec.Square 68 m := ⟨hsrg.adj.square, hsrg.adj.part.rect⟩
  have e2 : s = (cocktail 34).take 2 := by
    rw [show seed ((68 : Nat) : Int) 66 64 66 = .ok ((cocktail 34).take 2) by decide +kernel] at hs
    exact (Except.ok.inj hs).symm
  have hl2 : s.length = 2 := by rw [e2]; decide
  have hlen : m.length = 68 := hsrg.adj.square
  obtain ⟨h1, -, h3⟩ := hc.take
  rw [hl2] at h1
  simp only [hl2, hlen] at h3
  have t2 : m.take 2 = (cocktail 34).take 2 := h1.trans e2
  have t3 : m.take 3 = (cocktail 34).take 3 := by
    have := h3 2 (by omega) (by omega)
    rw [t2, cocktail_step2] at this
    exact List.mem_singleton.1 this
  have t4 : m.take 4 = (cocktail 34).take 4 := by
    have := h3 3 (by omega) (by omega)
    rw [t3, cocktail_step3] at this
    exact List.mem_singleton.1 this
  have hpart : ∀ R, R ≤ 68 → Spec.Part 68 (m.take R) := fun R hR =>
    ⟨fun r hr => hsrg.adj.part.rect r (List.mem_of_mem_take hr),
     fun r hr => hsrg.adj.part.bin r (List.mem_of_mem_take hr), by rw [List.length_take]; omega⟩
  have hst : ∀ R, 4 ≤ R → R ≤ 63 → Spec.Adjacent 68 (m.take R) →
      Spec.LeftJustified 68 (m.take R) (m.getD R []) := by
    intro R hR hR' had
    have hl : (m.take R).length = R := by rw [List.length_take]; omega
    obtain ⟨x, hx, -, -, hlj⟩ := (adv_ext' (hpart R (by omega)) (by omega) (by omega)
      (by rw [hl]; exact ⟨by omega, by omega, by omega⟩) (h3 R (by omega) (by omega))).ex
    have hg : m.getD R [] = Spec.nextRow (m.take R) x := by
      rw [List.take_succ_eq_append_getElem (by omega : R < m.length)] at hx
      have := List.append_cancel_left hx
      rw [List.getD_eq_getElem _ _ (by omega)]
      exact (List.cons.inj this).1
    rw [hg]
    exact (hlj had).1
  have had : ∀ R, 4 ≤ R → R ≤ 63 → Spec.Adjacent 68 (m.take R) := by
    intro R hR
    induction R, hR using Nat.le_induction with
    | base => intro _; rw [t4, cocktail_take (by omega)]; exact cp_adjacent
    | succ R hR ih =>
      intro hR'
      have h5 := ih (by omega)
      have := adjacent_snoc h5 (hst R hR (by omega) h5)
      rwa [List.getD_eq_getElem _ _ (by omega), ← List.take_succ_eq_append_getElem] at this
  have hent : ∀ i < 2 * 34, ∀ j < 2 * 34, Spec.ent m i j = cp 34 i j := by
    refine ha.cocktail (R₀ := 4) ?_ ?_
    · intro i hi j hj
      have : Spec.ent (m.take 4) i j = Spec.ent ((cocktail 34).take 4) i j := by rw [t4]
      rw [cocktail_take (by omega)] at this
      unfold Spec.ent at this ⊢
      rw [matOf_getD hi, rowAt_getD hj,
        List.getD_eq_getElem (m.take 4) [] (by rw [List.length_take]; omega),
        List.getElem_take, ← List.getD_eq_getElem _ []] at this
      exact this
    · intro R hR hR' i j hRi hij hj he
      have hl : (m.take R).length = R := by rw [List.length_take]; omega
      have := hst R hR (by omega) (had R hR (by omega)) i j (by omega) hij hj ?_
      · exact this
      · rw [← matOf_ent hsq, matOf_take (by omega), colEq_matOf (by omega) hj]
        exact he
  have t : m = cocktail 34 := square_ext hsq (matOf_square 68 (cp 34))
    (fun i hi j hj => by rw [hent i hi j hj]; exact (ent_matOf hi hj).symm)
  have := h3 65 (by omega) (by omega)
  rw [t, cocktail_step65] at this
  simp at this

/-- Six rows of 71 columns; the columns 7, …, 70 are all the different columns of six bits. -/
def wideMat : Mat :=
  (List.range 6).map (fun i => List.replicate 7 (0 : Int) ++
    (List.range 64).map (fun j => ((63 - j) / 2 ^ (5 - i) % 2 : Int)))

/-- **C51, an exception.**  For `v = 71` one step can raise: with 64 different columns the codes of
the rows are negative, all equations are dropped, and `_decode` calls `next` on an empty iterator.
(`StopIteration` inside the generator `solve_question` reaches the caller as `RuntimeError`.) -/
theorem C51_step_raises : Spec.Part 71 wideMat ∧ wideMat.length = 6 ∧ Spec.Adjacent 71 wideMat ∧
    advance wideMat = .error .stopIteration := by
  refine ⟨⟨by decide +kernel, by unfold Spec.Bin; decide +kernel, by decide⟩, by decide, ?_,
    by decide +kernel⟩
  have key : ∀ i < 64, Spec.binVal (wideMat.map (fun r => r.getD (i + 7) 0)) = 63 - i := by
    decide +kernel
  intro i j k h1 h2 h3 h4 he
  have hl : wideMat.length = 6 := by decide
  have hi := key (i - 7) (by omega)
  have hk := key (k - 7) (by omega)
  rw [show i - 7 + 7 = i by omega] at hi
  rw [show k - 7 + 7 = k by omega] at hk
  rw [List.map_congr_left he, hk] at hi
  omega

/-- **C51, wrong parameters.**  The parameters of a strongly regular graph on 132 vertices are not
the ones read off its first two rows: the inner product 128 is -128 as an `int8`. -/
theorem C51_parameters_wrap : Spec.IsSRG 132 130 128 130 (cocktail 66) ∧
    seed 132 130 128 130 = .ok ((cocktail 66).take 2) ∧
    vklu ((cocktail 66).take 2) = .ok (132, 130, -128, 33410) :=
  ⟨C51_cocktail 66, by decide +kernel, by decide +kernel⟩

/-- Non-vacuity: with one column fewer on the left the same matrix has 63 rows, and C07 holds for
it: the row is found. -/
example : (fromMatrix (((tallMat 0 1 0).take 63).map (List.drop 1)) >>= solveQuestion) =
    .ok [[0, 1]] := by
  decide +kernel

end TDS
