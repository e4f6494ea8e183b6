import Verif.Props.Utils

/-! # C29: `complement` on arrays of any shape -/

namespace TDS

/-- **C29.**  `complement` on an array of any shape with `R` rows and `C` columns: it fails unless the array is
square, a row or a column.  For a row numpy takes 1 from every entry, for a column it makes a square. -/
theorem C29_shapes {R C : Nat} {m : Mat} (hR : m.length = R) (hC : ∀ r ∈ m, r.length = C) (hC0 : R = 0 → C = 0) :
    (Utils.complement m = .error .valueErr ↔ R = 0 ∨ C = 0 ∨ R ≠ C ∧ R ≠ 1 ∧ C ≠ 1) ∧
    ((R ≠ 0 ∧ C ≠ 0 ∧ (R = C ∨ R = 1 ∨ C = 1)) → ∃ m', Utils.complement m = .ok m' ∧ m'.length = R ∧
      (∀ r ∈ m', r.length = if C = 1 then R else C) ∧
      ∀ i < R, ∀ j < (if C = 1 then R else C), Spec.ent m' i j =
        (if Spec.ent m i (if C = 1 then 0 else j) = 0 then 1 else 0) - (if R = 1 ∨ i = j then 1 else 0)) := by
  have hnc : ncols m = C := by
    cases hm : m with
    | nil => rw [hm] at hR; simp at hR; simp [ncols, hC0 hR.symm]
    | cons r t => exact hC r (by rw [hm]; simp)
  have hinv : ∀ i < R, ∀ j < C, ((Utils.invert m).getD i []).getD j 0 = if Spec.ent m i j = 0 then 1 else 0 := by
    intro i hi j hj
    have hlen : (m.getD i []).length = C := by
      rw [List.getD_eq_getElem _ _ (by rw [hR]; exact hi)]
      exact hC _ (List.getElem_mem _)
    unfold Utils.invert
    rw [getD_map_lt (by rw [hR]; exact hi) [] [], getD_map_lt (by rw [hlen]; exact hj) 0 0]
    unfold Spec.ent
    by_cases h0 : (m.getD i []).getD j 0 = 0 <;> simp only [h0, ne_eq, not_true_eq_false, not_false_eq_true, if_true, if_false]
  have hent : ∀ (n p : Nat) (f : Nat → Nat → Int), ∀ i < n, ∀ j < p,
      Spec.ent ((List.range n).map fun i => (List.range p).map (f i)) i j = f i j := by
    intro n p f i hi j hj
    unfold Spec.ent
    rw [getD_map_lt (by simpa using hi) [] 0, getD_map_lt (by simpa using hj) 0 0]
    simp [hi, hj]
  unfold Utils.complement
  simp only [hR, hnc]
  by_cases h1 : R = 0 ∨ C = 0
  · rw [if_pos h1]
    refine ⟨⟨fun _ => by tauto, fun _ => rfl⟩, fun h => by tauto⟩
  rw [if_neg h1]
  by_cases h2 : R = C ∨ R = 1
  · rw [if_pos h2]
    refine ⟨⟨fun h => (by cases h), fun h => by tauto⟩, fun _ => ⟨_, rfl, by simp, ?_, ?_⟩⟩
    · intro r hr
      obtain ⟨i, -, rfl⟩ := List.mem_map.1 hr
      rw [List.length_map, List.length_range]
      split <;> omega
    · have e : (if C = 1 then R else C) = C := by split <;> omega
      rw [e]
      intro i hi j hj
      rw [hent R C _ i hi j hj, hinv i hi j hj]
      have e2 : (if C = 1 then 0 else j) = j := by split <;> omega
      rw [e2]
      congr 1
      unfold Utils.delta
      by_cases hR1 : R = 1
      · rw [if_pos hR1, if_pos (Or.inl hR1), if_pos (by omega)]
      · simp [hR1]
  · rw [if_neg h2]
    by_cases h3 : C = 1
    · rw [if_pos h3]
      refine ⟨⟨fun h => (by cases h), fun h => by tauto⟩, fun _ => ⟨_, rfl, by simp, ?_, ?_⟩⟩
      · intro r hr
        obtain ⟨i, -, rfl⟩ := List.mem_map.1 hr
        simp [h3]
      · rw [if_pos h3]
        intro i hi j hj
        rw [hent R R _ i hi j hj, hinv i hi 0 (by omega), if_pos h3]
        congr 1
        unfold Utils.delta
        have : ¬ R = 1 := by tauto
        simp [this]
    · rw [if_neg h3]
      exact ⟨⟨fun _ => by tauto, fun _ => rfl⟩, fun h => by tauto⟩

/-- Non-vacuity: a row, a column, and a shape that is refused. -/
example : Utils.complement [[0, 1, 0]] = .ok [[0, -1, 0]] ∧
    Utils.complement [[0], [1]] = .ok [[0, 1], [0, -1]] ∧
    Utils.complement [[0, 1, 0], [1, 0, 1]] = .error .valueErr := by
  decide +kernel

end TDS
