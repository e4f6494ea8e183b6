import Verif.Find.P21a

/-! Exhaustive search for (21, 10, 4, 5), evaluated by the kernel. -/

set_option Elab.async false

namespace TDS.Fast

open Database

theorem part_21_10_4_5_1 : part 21 10 4 5 5 23 1 p_21_10_4_5 = true := by decide +kernel

theorem part_21_10_4_5_5 : part 21 10 4 5 5 23 5 p_21_10_4_5 = true := by decide +kernel

theorem part_21_10_4_5_7 : part 21 10 4 5 5 23 7 p_21_10_4_5 = true := by decide +kernel

theorem part_21_10_4_5_8 : part 21 10 4 5 5 23 8 p_21_10_4_5 = true := by decide +kernel

theorem part_21_10_4_5_12 : part 21 10 4 5 5 23 12 p_21_10_4_5 = true := by decide +kernel

theorem part_21_10_4_5_13 : part 21 10 4 5 5 23 13 p_21_10_4_5 = true := by decide +kernel

theorem part_21_10_4_5_16 : part 21 10 4 5 5 23 16 p_21_10_4_5 = true := by decide +kernel

theorem part_21_10_4_5_18 : part 21 10 4 5 5 23 18 p_21_10_4_5 = true := by decide +kernel

theorem part_21_10_4_5_20 : part 21 10 4 5 5 23 20 p_21_10_4_5 = true := by decide +kernel

theorem part_21_10_4_5_21 : part 21 10 4 5 5 23 21 p_21_10_4_5 = true := by decide +kernel

theorem part_21_10_4_5_22 : part 21 10 4 5 5 23 22 p_21_10_4_5 = true := by decide +kernel

end TDS.Fast
