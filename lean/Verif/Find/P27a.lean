import Verif.Find.Search

/-! Exhaustive search for (27, 10, 1, 5), evaluated by the kernel. -/

set_option Elab.async false

namespace TDS.Fast

open Database

theorem part_27_10_1_5_0 : part 27 10 1 5 8 11 0 p_27_10_1_5 = true := by decide +kernel

theorem part_27_10_1_5_1 : part 27 10 1 5 8 11 1 p_27_10_1_5 = true := by decide +kernel

theorem part_27_10_1_5_2 : part 27 10 1 5 8 11 2 p_27_10_1_5 = true := by decide +kernel

theorem part_27_10_1_5_3 : part 27 10 1 5 8 11 3 p_27_10_1_5 = true := by decide +kernel

theorem part_27_10_1_5_4 : part 27 10 1 5 8 11 4 p_27_10_1_5 = true := by decide +kernel

theorem part_27_10_1_5_5 : part 27 10 1 5 8 11 5 p_27_10_1_5 = true := by decide +kernel

theorem part_27_10_1_5_6 : part 27 10 1 5 8 11 6 p_27_10_1_5 = true := by decide +kernel

theorem part_27_10_1_5_7 : part 27 10 1 5 8 11 7 p_27_10_1_5 = true := by decide +kernel

theorem part_27_10_1_5_8 : part 27 10 1 5 8 11 8 p_27_10_1_5 = true := by decide +kernel

theorem part_27_10_1_5_9 : part 27 10 1 5 8 11 9 p_27_10_1_5 = true := by decide +kernel

theorem part_27_10_1_5_10 : part 27 10 1 5 8 11 10 p_27_10_1_5 = true := by decide +kernel

end TDS.Fast
