import Verif.Model.Main
import Verif.Model.Modules

/-! `python -m srg` on stored parameters, evaluated by the kernel. -/

namespace TDS

open Database

theorem run_16_5_0_2 : main (["16", "5", "0", "2"].map String.toList) =
    .ok (p_16_5_0_2.map (bitMat 16)) := by decide +kernel

end TDS
