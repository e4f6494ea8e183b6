import Verif.Proof.Bits

/-! Evaluation of the check on the matrices stored for (28,12,6,4). -/

namespace TDS

namespace Database

theorem check28_0 : p_28_12_6_4_0.all (check 28 12 6 4) = true := by decide +kernel
theorem check28_1 : p_28_12_6_4_1.all (check 28 12 6 4) = true := by decide +kernel
theorem check28_2 : p_28_12_6_4_2.all (check 28 12 6 4) = true := by decide +kernel
theorem check28_3 : p_28_12_6_4_3.all (check 28 12 6 4) = true := by decide +kernel
theorem check28_4 : p_28_12_6_4_4.all (check 28 12 6 4) = true := by decide +kernel
theorem check28_5 : p_28_12_6_4_5.all (check 28 12 6 4) = true := by decide +kernel
theorem check28_6 : p_28_12_6_4_6.all (check 28 12 6 4) = true := by decide +kernel

end Database

end TDS
