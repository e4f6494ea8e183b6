import Verif.Props.Sorter

/-! # C24: `sorter.sort` with matrices of no rows -/

namespace TDS

/-- **C24.**  A list of at most one matrix comes back as it is, even if the matrix has no rows; with two or more
matrices, one of them without rows, there is a comparison and `np.hstack` of nothing raises ValueError. -/
theorem C24_empty (lst : List Mat) : (lst.length ≤ 1 → Sorter.sort lst = .ok lst) ∧
    (2 ≤ lst.length → [] ∈ lst → Sorter.sort lst = .error .valueErr) := by
  refine ⟨fun h => ?_, fun h h0 => ?_⟩
  · unfold Sorter.sort
    rw [if_neg (by omega)]
    match lst, h with
    | [], _ => rfl
    | [m], _ => rfl
  · unfold Sorter.sort
    exact if_pos ⟨h, List.any_eq_true.2 ⟨[], h0, rfl⟩⟩

/-- Non-vacuity: two, one and none. -/
example : Sorter.sort [[], [[0]]] = .error .valueErr ∧ Sorter.sort [[]] = .ok [[]] ∧ Sorter.sort [] = .ok [] := by
  decide +kernel

end TDS
