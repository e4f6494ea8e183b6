import Verif.Find.P27a

/-! All parts of the search for (27, 10, 1, 5). -/

namespace TDS.Fast

open Database

theorem part_27_10_1_5 : ∀ i < 11, part 27 10 1 5 8 11 i p_27_10_1_5 = true
  | 0, _ => part_27_10_1_5_0
  | 1, _ => part_27_10_1_5_1
  | 2, _ => part_27_10_1_5_2
  | 3, _ => part_27_10_1_5_3
  | 4, _ => part_27_10_1_5_4
  | 5, _ => part_27_10_1_5_5
  | 6, _ => part_27_10_1_5_6
  | 7, _ => part_27_10_1_5_7
  | 8, _ => part_27_10_1_5_8
  | 9, _ => part_27_10_1_5_9
  | 10, _ => part_27_10_1_5_10
  | i + 11, h => absurd h (by omega)

end TDS.Fast
