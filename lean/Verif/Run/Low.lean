import Verif.Model.Main

/-! The search for parameters of small degree without a graph, evaluated by the kernel. -/

namespace TDS

theorem low_17_4_0_1 : (seed 17 4 0 1).bind solve = .ok [] := by
  decide +kernel

theorem low_11_4_0_2 : (seed 11 4 0 2).bind solve = .ok [] := by
  decide +kernel

theorem low_13_4_1_1 : (seed 13 4 1 1).bind solve = .ok [] := by
  decide +kernel

theorem low_11_5_2_2 : (seed 11 5 2 2).bind solve = .ok [] := by
  decide +kernel

/-- The graph of a 3 x 3 grid in which cells of the same row or column are adjacent. -/
def grid9 : Mat :=
  [[0, 1, 1, 1, 1, 0, 0, 0, 0],
   [1, 0, 1, 0, 0, 1, 1, 0, 0],
   [1, 1, 0, 0, 0, 0, 0, 1, 1],
   [1, 0, 0, 0, 1, 1, 0, 1, 0],
   [1, 0, 0, 1, 0, 0, 1, 0, 1],
   [0, 1, 0, 1, 0, 0, 1, 1, 0],
   [0, 1, 0, 0, 1, 1, 0, 0, 1],
   [0, 0, 1, 1, 0, 1, 0, 0, 1],
   [0, 0, 1, 0, 1, 0, 1, 1, 0]]

theorem low_9_4_1_2 : (seed 9 4 1 2).bind solve = .ok [grid9] := by
  decide +kernel

theorem low_13_8_4_6 : (seed 13 8 4 6).bind solve = .ok [] := by
  decide +kernel

theorem low_11_6_3_3 : (seed 11 6 3 3).bind solve = .ok [] := by
  decide +kernel

end TDS
