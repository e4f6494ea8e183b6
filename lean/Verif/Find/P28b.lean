import Verif.Find.P28a

/-! Exhaustive search for (28, 12, 6, 4), evaluated by the kernel. -/

set_option Elab.async false

namespace TDS.Fast

open Database

theorem part_28_12_6_4_0 : part 28 12 6 4 4 53 0 p_28_12_6_4 = true := by decide +kernel

theorem part_28_12_6_4_6 : part 28 12 6 4 4 53 6 p_28_12_6_4 = true := by decide +kernel

theorem part_28_12_6_4_12 : part 28 12 6 4 4 53 12 p_28_12_6_4 = true := by decide +kernel

theorem part_28_12_6_4_13 : part 28 12 6 4 4 53 13 p_28_12_6_4 = true := by decide +kernel

theorem part_28_12_6_4_20 : part 28 12 6 4 4 53 20 p_28_12_6_4 = true := by decide +kernel

theorem part_28_12_6_4_24 : part 28 12 6 4 4 53 24 p_28_12_6_4 = true := by decide +kernel

theorem part_28_12_6_4_25 : part 28 12 6 4 4 53 25 p_28_12_6_4 = true := by decide +kernel

theorem part_28_12_6_4_33 : part 28 12 6 4 4 53 33 p_28_12_6_4 = true := by decide +kernel

theorem part_28_12_6_4_46 : part 28 12 6 4 4 53 46 p_28_12_6_4 = true := by decide +kernel

theorem part_28_12_6_4_50 : part 28 12 6 4 4 53 50 p_28_12_6_4 = true := by decide +kernel

end TDS.Fast
