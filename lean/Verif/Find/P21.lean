import Verif.Find.P21a
import Verif.Find.P21b

/-! All parts of the search for (21, 10, 4, 5). -/

namespace TDS.Fast

open Database

theorem part_21_10_4_5 : ∀ i < 23, part 21 10 4 5 5 23 i p_21_10_4_5 = true
  | 0, _ => part_21_10_4_5_0
  | 1, _ => part_21_10_4_5_1
  | 2, _ => part_21_10_4_5_2
  | 3, _ => part_21_10_4_5_3
  | 4, _ => part_21_10_4_5_4
  | 5, _ => part_21_10_4_5_5
  | 6, _ => part_21_10_4_5_6
  | 7, _ => part_21_10_4_5_7
  | 8, _ => part_21_10_4_5_8
  | 9, _ => part_21_10_4_5_9
  | 10, _ => part_21_10_4_5_10
  | 11, _ => part_21_10_4_5_11
  | 12, _ => part_21_10_4_5_12
  | 13, _ => part_21_10_4_5_13
  | 14, _ => part_21_10_4_5_14
  | 15, _ => part_21_10_4_5_15
  | 16, _ => part_21_10_4_5_16
  | 17, _ => part_21_10_4_5_17
  | 18, _ => part_21_10_4_5_18
  | 19, _ => part_21_10_4_5_19
  | 20, _ => part_21_10_4_5_20
  | 21, _ => part_21_10_4_5_21
  | 22, _ => part_21_10_4_5_22
  | i + 23, h => absurd h (by omega)

end TDS.Fast
