import Verif.Model.Data
import Verif.Model.Data28

/-! The modules of the package `srg.database`. -/

namespace TDS

namespace Database

/-- A module of the database: its name, the parameters assigned to `v, k, l, u` in it, and the
stored matrices (/repo/srg/database/problem_*.py). -/
structure Entry where
  name : String
  v : Nat
  k : Nat
  l : Nat
  u : Nat
  rows : List (List Nat)

/-- The files of /repo/srg/database (/repo/srg/database/problem_*.py). -/
def entries : List Entry :=
  [⟨"problem_10_3_0_1", 10, 3, 0, 1, p_10_3_0_1⟩,
   ⟨"problem_10_6_3_4", 10, 6, 3, 4, p_10_6_3_4⟩,
   ⟨"problem_12_6_0_6", 12, 6, 0, 6, p_12_6_0_6⟩,
   ⟨"problem_13_6_2_3", 13, 6, 2, 3, p_13_6_2_3⟩,
   ⟨"problem_15_6_1_3", 15, 6, 1, 3, p_15_6_1_3⟩,
   ⟨"problem_15_8_4_4", 15, 8, 4, 4, p_15_8_4_4⟩,
   ⟨"problem_16_10_6_6", 16, 10, 6, 6, p_16_10_6_6⟩,
   ⟨"problem_16_5_0_2", 16, 5, 0, 2, p_16_5_0_2⟩,
   ⟨"problem_16_6_2_2", 16, 6, 2, 2, p_16_6_2_2⟩,
   ⟨"problem_16_9_4_6", 16, 9, 4, 6, p_16_9_4_6⟩,
   ⟨"problem_17_8_3_4", 17, 8, 3, 4, p_17_8_3_4⟩,
   ⟨"problem_21_10_4_5", 21, 10, 4, 5, p_21_10_4_5⟩,
   ⟨"problem_21_10_5_4", 21, 10, 5, 4, p_21_10_5_4⟩,
   ⟨"problem_25_12_5_6", 25, 12, 5, 6, p_25_12_5_6⟩,
   ⟨"problem_25_8_3_2", 25, 8, 3, 2, p_25_8_3_2⟩,
   ⟨"problem_26_10_3_4", 26, 10, 3, 4, p_26_10_3_4⟩,
   ⟨"problem_27_10_1_5", 27, 10, 1, 5, p_27_10_1_5⟩,
   ⟨"problem_28_12_6_4", 28, 12, 6, 4, p_28_12_6_4⟩,
   ⟨"problem_29_14_6_7", 29, 14, 6, 7, p_29_14_6_7⟩,
   ⟨"problem_4_2_0_2", 4, 2, 0, 2, p_4_2_0_2⟩,
   ⟨"problem_5_2_0_1", 5, 2, 0, 1, p_5_2_0_1⟩]

/-- `solutions` of a module (/repo/srg/database/problem_*.py). -/
def Entry.solutions (e : Entry) : List Mat := e.rows.map (bitMat e.v)

/-- All modules, with their `solutions` (/repo/srg/database/__init__.py:38-42). -/
def modules : Modules := entries.map (fun e => (e.name.toList, e.solutions))

end Database

end TDS
