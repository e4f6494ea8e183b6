import Verif.Find.Search

/-! Exhaustive search for small parameters, evaluated by the kernel. -/

set_option Elab.async false

namespace TDS.Fast

open Database

theorem part_4_2_0_2 : ∀ i < 1, part 4 2 0 2 0 1 i p_4_2_0_2 = true := by decide +kernel

theorem part_5_2_0_1 : ∀ i < 1, part 5 2 0 1 0 1 i p_5_2_0_1 = true := by decide +kernel

theorem part_10_3_0_1 : ∀ i < 1, part 10 3 0 1 0 1 i p_10_3_0_1 = true := by decide +kernel

theorem part_10_6_3_4 : ∀ i < 1, part 10 6 3 4 0 1 i p_10_6_3_4 = true := by decide +kernel

theorem part_12_6_0_6 : ∀ i < 1, part 12 6 0 6 0 1 i p_12_6_0_6 = true := by decide +kernel

theorem part_13_6_2_3 : ∀ i < 1, part 13 6 2 3 0 1 i p_13_6_2_3 = true := by decide +kernel

theorem part_15_6_1_3 : ∀ i < 1, part 15 6 1 3 0 1 i p_15_6_1_3 = true := by decide +kernel

theorem part_15_8_4_4 : ∀ i < 1, part 15 8 4 4 0 1 i p_15_8_4_4 = true := by decide +kernel

theorem part_16_5_0_2 : ∀ i < 1, part 16 5 0 2 0 1 i p_16_5_0_2 = true := by decide +kernel

theorem part_16_6_2_2 : ∀ i < 1, part 16 6 2 2 0 1 i p_16_6_2_2 = true := by decide +kernel

theorem part_16_9_4_6 : ∀ i < 1, part 16 9 4 6 0 1 i p_16_9_4_6 = true := by decide +kernel

theorem part_16_10_6_6 : ∀ i < 1, part 16 10 6 6 0 1 i p_16_10_6_6 = true := by decide +kernel

theorem part_17_8_3_4 : ∀ i < 1, part 17 8 3 4 0 1 i p_17_8_3_4 = true := by decide +kernel

theorem part_21_10_5_4 : ∀ i < 1, part 21 10 5 4 0 1 i p_21_10_5_4 = true := by decide +kernel

theorem part_25_8_3_2 : ∀ i < 1, part 25 8 3 2 0 1 i p_25_8_3_2 = true := by decide +kernel

end TDS.Fast
