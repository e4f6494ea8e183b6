import Verif.Model.Main
import Verif.Model.Modules

/-! `python -m srg` on stored parameters, evaluated by the kernel. -/

namespace TDS

open Database

theorem run_4_2_0_2 : main (["4", "2", "0", "2"].map String.toList) =
    .ok (p_4_2_0_2.map (bitMat 4)) := by decide +kernel

theorem run_5_2_0_1 : main (["5", "2", "0", "1"].map String.toList) =
    .ok (p_5_2_0_1.map (bitMat 5)) := by decide +kernel

theorem run_10_3_0_1 : main (["10", "3", "0", "1"].map String.toList) =
    .ok (p_10_3_0_1.map (bitMat 10)) := by decide +kernel

theorem run_10_6_3_4 : main (["10", "6", "3", "4"].map String.toList) =
    .ok (p_10_6_3_4.map (bitMat 10)) := by decide +kernel

theorem run_12_6_0_6 : main (["12", "6", "0", "6"].map String.toList) =
    .ok (p_12_6_0_6.map (bitMat 12)) := by decide +kernel

end TDS
