import Verif.Find.Search

/-! Exhaustive search for (21, 10, 4, 5), evaluated by the kernel. -/

set_option Elab.async false

namespace TDS.Fast

open Database

theorem part_21_10_4_5_0 : part 21 10 4 5 5 23 0 p_21_10_4_5 = true := by decide +kernel

theorem part_21_10_4_5_2 : part 21 10 4 5 5 23 2 p_21_10_4_5 = true := by decide +kernel

theorem part_21_10_4_5_3 : part 21 10 4 5 5 23 3 p_21_10_4_5 = true := by decide +kernel

theorem part_21_10_4_5_4 : part 21 10 4 5 5 23 4 p_21_10_4_5 = true := by decide +kernel

theorem part_21_10_4_5_6 : part 21 10 4 5 5 23 6 p_21_10_4_5 = true := by decide +kernel

theorem part_21_10_4_5_9 : part 21 10 4 5 5 23 9 p_21_10_4_5 = true := by decide +kernel

theorem part_21_10_4_5_10 : part 21 10 4 5 5 23 10 p_21_10_4_5 = true := by decide +kernel

theorem part_21_10_4_5_11 : part 21 10 4 5 5 23 11 p_21_10_4_5 = true := by decide +kernel

theorem part_21_10_4_5_14 : part 21 10 4 5 5 23 14 p_21_10_4_5 = true := by decide +kernel

theorem part_21_10_4_5_15 : part 21 10 4 5 5 23 15 p_21_10_4_5 = true := by decide +kernel

theorem part_21_10_4_5_17 : part 21 10 4 5 5 23 17 p_21_10_4_5 = true := by decide +kernel

theorem part_21_10_4_5_19 : part 21 10 4 5 5 23 19 p_21_10_4_5 = true := by decide +kernel

end TDS.Fast
