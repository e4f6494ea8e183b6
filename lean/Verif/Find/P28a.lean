import Verif.Find.Search

/-! Exhaustive search for (28, 12, 6, 4), evaluated by the kernel. -/

set_option Elab.async false

namespace TDS.Fast

open Database

theorem part_28_12_6_4_1 : part 28 12 6 4 4 53 1 p_28_12_6_4 = true := by decide +kernel

theorem part_28_12_6_4_3 : part 28 12 6 4 4 53 3 p_28_12_6_4 = true := by decide +kernel

theorem part_28_12_6_4_4 : part 28 12 6 4 4 53 4 p_28_12_6_4 = true := by decide +kernel

theorem part_28_12_6_4_5 : part 28 12 6 4 4 53 5 p_28_12_6_4 = true := by decide +kernel

theorem part_28_12_6_4_7 : part 28 12 6 4 4 53 7 p_28_12_6_4 = true := by decide +kernel

theorem part_28_12_6_4_8 : part 28 12 6 4 4 53 8 p_28_12_6_4 = true := by decide +kernel

theorem part_28_12_6_4_9 : part 28 12 6 4 4 53 9 p_28_12_6_4 = true := by decide +kernel

theorem part_28_12_6_4_14 : part 28 12 6 4 4 53 14 p_28_12_6_4 = true := by decide +kernel

theorem part_28_12_6_4_15 : part 28 12 6 4 4 53 15 p_28_12_6_4 = true := by decide +kernel

theorem part_28_12_6_4_16 : part 28 12 6 4 4 53 16 p_28_12_6_4 = true := by decide +kernel

theorem part_28_12_6_4_17 : part 28 12 6 4 4 53 17 p_28_12_6_4 = true := by decide +kernel

theorem part_28_12_6_4_18 : part 28 12 6 4 4 53 18 p_28_12_6_4 = true := by decide +kernel

theorem part_28_12_6_4_22 : part 28 12 6 4 4 53 22 p_28_12_6_4 = true := by decide +kernel

theorem part_28_12_6_4_29 : part 28 12 6 4 4 53 29 p_28_12_6_4 = true := by decide +kernel

theorem part_28_12_6_4_31 : part 28 12 6 4 4 53 31 p_28_12_6_4 = true := by decide +kernel

theorem part_28_12_6_4_32 : part 28 12 6 4 4 53 32 p_28_12_6_4 = true := by decide +kernel

theorem part_28_12_6_4_37 : part 28 12 6 4 4 53 37 p_28_12_6_4 = true := by decide +kernel

theorem part_28_12_6_4_38 : part 28 12 6 4 4 53 38 p_28_12_6_4 = true := by decide +kernel

theorem part_28_12_6_4_39 : part 28 12 6 4 4 53 39 p_28_12_6_4 = true := by decide +kernel

theorem part_28_12_6_4_40 : part 28 12 6 4 4 53 40 p_28_12_6_4 = true := by decide +kernel

theorem part_28_12_6_4_41 : part 28 12 6 4 4 53 41 p_28_12_6_4 = true := by decide +kernel

theorem part_28_12_6_4_44 : part 28 12 6 4 4 53 44 p_28_12_6_4 = true := by decide +kernel

theorem part_28_12_6_4_45 : part 28 12 6 4 4 53 45 p_28_12_6_4 = true := by decide +kernel

theorem part_28_12_6_4_52 : part 28 12 6 4 4 53 52 p_28_12_6_4 = true := by decide +kernel

end TDS.Fast
