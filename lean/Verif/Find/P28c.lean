import Verif.Find.P28b

/-! Exhaustive search for (28, 12, 6, 4), evaluated by the kernel. -/

set_option Elab.async false

namespace TDS.Fast

open Database

theorem part_28_12_6_4_10 : part 28 12 6 4 4 53 10 p_28_12_6_4 = true := by decide +kernel

theorem part_28_12_6_4_11 : part 28 12 6 4 4 53 11 p_28_12_6_4 = true := by decide +kernel

theorem part_28_12_6_4_19 : part 28 12 6 4 4 53 19 p_28_12_6_4 = true := by decide +kernel

theorem part_28_12_6_4_26 : part 28 12 6 4 4 53 26 p_28_12_6_4 = true := by decide +kernel

theorem part_28_12_6_4_30 : part 28 12 6 4 4 53 30 p_28_12_6_4 = true := by decide +kernel

theorem part_28_12_6_4_42 : part 28 12 6 4 4 53 42 p_28_12_6_4 = true := by decide +kernel

theorem part_28_12_6_4_43 : part 28 12 6 4 4 53 43 p_28_12_6_4 = true := by decide +kernel

theorem part_28_12_6_4_48 : part 28 12 6 4 4 53 48 p_28_12_6_4 = true := by decide +kernel

theorem part_28_12_6_4_49 : part 28 12 6 4 4 53 49 p_28_12_6_4 = true := by decide +kernel

theorem part_28_12_6_4_51 : part 28 12 6 4 4 53 51 p_28_12_6_4 = true := by decide +kernel

end TDS.Fast
