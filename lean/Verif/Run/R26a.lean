import Verif.Run.R26d

/-! The search for (26,5,0,1), evaluated by the kernel in parts. -/

namespace TDS

theorem ten26_reached : ((seed 26 5 0 1).bind fun s => Spec.rounds advance 8 [s]) = .ok [ten26] := by
  decide +kernel

theorem eleven26_reached : advance ten26 = .ok (eleven26.map (fun r => ten26 ++ [r])) := by
  decide +kernel

theorem empty26_0 : solve (ten26 ++ [eleven26.getD 0 []]) = .ok [] := by
  decide +kernel

theorem empty26_1 : solve (ten26 ++ [eleven26.getD 1 []]) = .ok [] := by
  decide +kernel

end TDS
