import Verif.Run.R26d

/-! The search for (26,5,0,1), evaluated by the kernel in parts. -/

namespace TDS

theorem empty26_2 : solve (ten26 ++ [eleven26.getD 2 []]) = .ok [] := by
  decide +kernel

theorem empty26_3 : solve (ten26 ++ [eleven26.getD 3 []]) = .ok [] := by
  decide +kernel

end TDS
