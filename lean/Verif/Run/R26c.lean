import Verif.Run.R26d

/-! The search for (26,5,0,1), evaluated by the kernel in parts. -/

namespace TDS

theorem empty26_4 : solve (ten26 ++ [eleven26.getD 4 []]) = .ok [] := by
  decide +kernel

theorem empty26_5 : solve (ten26 ++ [eleven26.getD 5 []]) = .ok [] := by
  decide +kernel

end TDS
