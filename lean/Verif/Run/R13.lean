import Verif.Model.Main
import Verif.Model.Modules

/-! `python -m srg` on stored parameters, evaluated by the kernel. -/

namespace TDS

open Database

theorem run_13_6_2_3 : main (["13", "6", "2", "3"].map String.toList) =
    .ok (p_13_6_2_3.map (bitMat 13)) := by decide +kernel

end TDS
