import Verif.Model.Main
import Verif.Model.Modules

/-! `python -m srg` on stored parameters, evaluated by the kernel. -/

namespace TDS

open Database

theorem run_15_6_1_3 : main (["15", "6", "1", "3"].map String.toList) =
    .ok (p_15_6_1_3.map (bitMat 15)) := by decide +kernel

end TDS
