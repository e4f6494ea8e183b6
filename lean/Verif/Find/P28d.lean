import Verif.Find.P28c

/-! Exhaustive search for (28, 12, 6, 4), evaluated by the kernel. -/

set_option Elab.async false

namespace TDS.Fast

open Database

theorem part_28_12_6_4_2 : part 28 12 6 4 4 53 2 p_28_12_6_4 = true := by decide +kernel

theorem part_28_12_6_4_21 : part 28 12 6 4 4 53 21 p_28_12_6_4 = true := by decide +kernel

theorem part_28_12_6_4_23 : part 28 12 6 4 4 53 23 p_28_12_6_4 = true := by decide +kernel

theorem part_28_12_6_4_27 : part 28 12 6 4 4 53 27 p_28_12_6_4 = true := by decide +kernel

theorem part_28_12_6_4_28 : part 28 12 6 4 4 53 28 p_28_12_6_4 = true := by decide +kernel

theorem part_28_12_6_4_34 : part 28 12 6 4 4 53 34 p_28_12_6_4 = true := by decide +kernel

theorem part_28_12_6_4_35 : part 28 12 6 4 4 53 35 p_28_12_6_4 = true := by decide +kernel

theorem part_28_12_6_4_36 : part 28 12 6 4 4 53 36 p_28_12_6_4 = true := by decide +kernel

theorem part_28_12_6_4_47 : part 28 12 6 4 4 53 47 p_28_12_6_4 = true := by decide +kernel

end TDS.Fast
