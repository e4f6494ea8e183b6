import Verif.Find.P28a
import Verif.Find.P28b
import Verif.Find.P28c
import Verif.Find.P28d

/-! All parts of the search for (28, 12, 6, 4). -/

namespace TDS.Fast

open Database

theorem part_28_12_6_4 : ∀ i < 53, part 28 12 6 4 4 53 i p_28_12_6_4 = true
  | 0, _ => part_28_12_6_4_0
  | 1, _ => part_28_12_6_4_1
  | 2, _ => part_28_12_6_4_2
  | 3, _ => part_28_12_6_4_3
  | 4, _ => part_28_12_6_4_4
  | 5, _ => part_28_12_6_4_5
  | 6, _ => part_28_12_6_4_6
  | 7, _ => part_28_12_6_4_7
  | 8, _ => part_28_12_6_4_8
  | 9, _ => part_28_12_6_4_9
  | 10, _ => part_28_12_6_4_10
  | 11, _ => part_28_12_6_4_11
  | 12, _ => part_28_12_6_4_12
  | 13, _ => part_28_12_6_4_13
  | 14, _ => part_28_12_6_4_14
  | 15, _ => part_28_12_6_4_15
  | 16, _ => part_28_12_6_4_16
  | 17, _ => part_28_12_6_4_17
  | 18, _ => part_28_12_6_4_18
  | 19, _ => part_28_12_6_4_19
  | 20, _ => part_28_12_6_4_20
  | 21, _ => part_28_12_6_4_21
  | 22, _ => part_28_12_6_4_22
  | 23, _ => part_28_12_6_4_23
  | 24, _ => part_28_12_6_4_24
  | 25, _ => part_28_12_6_4_25
  | 26, _ => part_28_12_6_4_26
  | 27, _ => part_28_12_6_4_27
  | 28, _ => part_28_12_6_4_28
  | 29, _ => part_28_12_6_4_29
  | 30, _ => part_28_12_6_4_30
  | 31, _ => part_28_12_6_4_31
  | 32, _ => part_28_12_6_4_32
  | 33, _ => part_28_12_6_4_33
  | 34, _ => part_28_12_6_4_34
  | 35, _ => part_28_12_6_4_35
  | 36, _ => part_28_12_6_4_36
  | 37, _ => part_28_12_6_4_37
  | 38, _ => part_28_12_6_4_38
  | 39, _ => part_28_12_6_4_39
  | 40, _ => part_28_12_6_4_40
  | 41, _ => part_28_12_6_4_41
  | 42, _ => part_28_12_6_4_42
  | 43, _ => part_28_12_6_4_43
  | 44, _ => part_28_12_6_4_44
  | 45, _ => part_28_12_6_4_45
  | 46, _ => part_28_12_6_4_46
  | 47, _ => part_28_12_6_4_47
  | 48, _ => part_28_12_6_4_48
  | 49, _ => part_28_12_6_4_49
  | 50, _ => part_28_12_6_4_50
  | 51, _ => part_28_12_6_4_51
  | 52, _ => part_28_12_6_4_52
  | i + 53, h => absurd h (by omega)

end TDS.Fast
