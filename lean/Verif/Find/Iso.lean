import Verif.Proof.Classify

/-! Relabellings between the stored matrices, checked by the kernel. -/

set_option Elab.async false

namespace TDS

open Database

/-- Relabellings of the matrices of `p_4_2_0_2`. -/
def c_4_2_0_2 : List (Nat × List Nat) :=
  [(0, [0, 1, 2, 3])]

theorem classes_4_2_0_2 :
    relabelled 4 ([0].map (p_4_2_0_2.getD · [])) p_4_2_0_2 c_4_2_0_2 = true := by
  decide +kernel

/-- Relabellings of the matrices of `p_5_2_0_1`. -/
def c_5_2_0_1 : List (Nat × List Nat) :=
  [(0, [0, 1, 2, 3, 4])]

theorem classes_5_2_0_1 :
    relabelled 5 ([0].map (p_5_2_0_1.getD · [])) p_5_2_0_1 c_5_2_0_1 = true := by
  decide +kernel

/-- Relabellings of the matrices of `p_10_3_0_1`. -/
def c_10_3_0_1 : List (Nat × List Nat) :=
  [(0, [0, 1, 2, 3, 4, 5, 6, 7, 8, 9])]

theorem classes_10_3_0_1 :
    relabelled 10 ([0].map (p_10_3_0_1.getD · [])) p_10_3_0_1 c_10_3_0_1 = true := by
  decide +kernel

/-- Relabellings of the matrices of `p_10_6_3_4`. -/
def c_10_6_3_4 : List (Nat × List Nat) :=
  [(0, [0, 1, 2, 3, 4, 5, 6, 7, 8, 9]),
   (0, [0, 1, 3, 4, 2, 5, 6, 7, 8, 9])]

theorem classes_10_6_3_4 :
    relabelled 10 ([0].map (p_10_6_3_4.getD · [])) p_10_6_3_4 c_10_6_3_4 = true := by
  decide +kernel

/-- Relabellings of the matrices of `p_12_6_0_6`. -/
def c_12_6_0_6 : List (Nat × List Nat) :=
  [(0, [0, 1, 2, 3, 4, 5, 6, 7, 8, 9, 10, 11])]

theorem classes_12_6_0_6 :
    relabelled 12 ([0].map (p_12_6_0_6.getD · [])) p_12_6_0_6 c_12_6_0_6 = true := by
  decide +kernel

/-- Relabellings of the matrices of `p_13_6_2_3`. -/
def c_13_6_2_3 : List (Nat × List Nat) :=
  [(0, [0, 1, 2, 3, 4, 5, 6, 7, 8, 9, 10, 11, 12]),
   (0, [0, 1, 3, 2, 5, 4, 6, 8, 7, 9, 10, 12, 11])]

theorem classes_13_6_2_3 :
    relabelled 13 ([0].map (p_13_6_2_3.getD · [])) p_13_6_2_3 c_13_6_2_3 = true := by
  decide +kernel

/-- Relabellings of the matrices of `p_15_6_1_3`. -/
def c_15_6_1_3 : List (Nat × List Nat) :=
  [(0, [0, 1, 2, 3, 4, 5, 6, 7, 8, 9, 10, 11, 12, 13, 14]),
   (0, [0, 1, 2, 3, 4, 6, 5, 7, 8, 9, 10, 11, 12, 13, 14])]

theorem classes_15_6_1_3 :
    relabelled 15 ([0].map (p_15_6_1_3.getD · [])) p_15_6_1_3 c_15_6_1_3 = true := by
  decide +kernel

/-- Relabellings of the matrices of `p_15_8_4_4`. -/
def c_15_8_4_4 : List (Nat × List Nat) :=
  [(0, [0, 1, 2, 3, 4, 5, 6, 7, 8, 9, 10, 11, 12, 13, 14]),
   (0, [0, 1, 3, 4, 5, 2, 6, 7, 8, 9, 10, 11, 12, 13, 14])]

theorem classes_15_8_4_4 :
    relabelled 15 ([0].map (p_15_8_4_4.getD · [])) p_15_8_4_4 c_15_8_4_4 = true := by
  decide +kernel

/-- Relabellings of the matrices of `p_16_5_0_2`. -/
def c_16_5_0_2 : List (Nat × List Nat) :=
  [(0, [0, 1, 2, 3, 4, 5, 6, 7, 8, 9, 10, 11, 12, 13, 14, 15])]

theorem classes_16_5_0_2 :
    relabelled 16 ([0].map (p_16_5_0_2.getD · [])) p_16_5_0_2 c_16_5_0_2 = true := by
  decide +kernel

/-- Relabellings of the matrices of `p_16_6_2_2`. -/
def c_16_6_2_2 : List (Nat × List Nat) :=
  [(0, [0, 1, 2, 3, 4, 5, 6, 7, 8, 9, 10, 11, 12, 13, 14, 15]),
   (1, [0, 1, 2, 3, 4, 5, 6, 7, 8, 9, 10, 11, 12, 13, 14, 15])]

theorem classes_16_6_2_2 :
    relabelled 16 ([0, 1].map (p_16_6_2_2.getD · [])) p_16_6_2_2 c_16_6_2_2 = true := by
  decide +kernel

/-- Relabellings of the matrices of `p_16_9_4_6`. -/
def c_16_9_4_6 : List (Nat × List Nat) :=
  [(0, [0, 1, 2, 3, 4, 5, 6, 7, 8, 9, 10, 11, 12, 13, 14, 15]),
   (0, [0, 1, 2, 3, 4, 5, 7, 6, 8, 9, 11, 10, 12, 13, 14, 15]),
   (0, [0, 1, 2, 3, 5, 4, 6, 7, 8, 9, 10, 11, 12, 13, 14, 15]),
   (0, [0, 1, 2, 3, 5, 4, 7, 6, 8, 9, 11, 10, 12, 13, 14, 15]),
   (0, [0, 1, 2, 4, 5, 3, 8, 7, 6, 9, 10, 11, 12, 13, 14, 15]),
   (0, [0, 1, 2, 5, 4, 3, 6, 7, 8, 9, 12, 10, 11, 13, 14, 15]),
   (0, [0, 1, 2, 5, 4, 3, 7, 6, 8, 9, 12, 11, 10, 13, 14, 15]),
   (0, [0, 1, 4, 5, 2, 3, 8, 9, 7, 6, 10, 11, 12, 13, 14, 15]),
   (0, [0, 1, 5, 4, 2, 3, 6, 7, 8, 9, 12, 13, 10, 11, 14, 15]),
   (0, [0, 1, 5, 4, 2, 3, 7, 6, 8, 9, 12, 13, 11, 10, 14, 15]),
   (0, [0, 4, 1, 5, 8, 9, 2, 3, 7, 6, 10, 11, 15, 14, 12, 13]),
   (0, [0, 4, 8, 9, 1, 5, 2, 7, 3, 6, 10, 15, 11, 14, 12, 13]),
   (1, [0, 1, 2, 3, 4, 5, 6, 7, 8, 9, 10, 11, 12, 13, 14, 15])]

theorem classes_16_9_4_6 :
    relabelled 16 ([0, 12].map (p_16_9_4_6.getD · [])) p_16_9_4_6 c_16_9_4_6 = true := by
  decide +kernel

/-- Relabellings of the matrices of `p_16_10_6_6`. -/
def c_16_10_6_6 : List (Nat × List Nat) :=
  [(0, [0, 1, 2, 3, 4, 5, 6, 7, 8, 9, 10, 11, 12, 13, 14, 15]),
   (0, [0, 1, 2, 4, 5, 3, 6, 7, 8, 9, 10, 11, 12, 13, 14, 15])]

theorem classes_16_10_6_6 :
    relabelled 16 ([0].map (p_16_10_6_6.getD · [])) p_16_10_6_6 c_16_10_6_6 = true := by
  decide +kernel

/-- Relabellings of the matrices of `p_17_8_3_4`. -/
def c_17_8_3_4 : List (Nat × List Nat) :=
  [(0, [0, 1, 2, 3, 4, 5, 6, 7, 8, 9, 10, 11, 12, 13, 14, 15, 16]),
   (0, [0, 1, 3, 2, 4, 7, 8, 5, 6, 9, 11, 10, 12, 13, 15, 14, 16]),
   (0, [0, 1, 2, 4, 3, 5, 6, 7, 8, 9, 10, 11, 12, 14, 13, 16, 15]),
   (0, [0, 1, 4, 2, 3, 5, 7, 6, 8, 11, 12, 9, 10, 14, 16, 13, 15]),
   (0, [0, 1, 3, 4, 2, 7, 8, 5, 6, 11, 9, 12, 10, 13, 15, 14, 16]),
   (0, [0, 1, 4, 3, 2, 7, 5, 8, 6, 11, 12, 9, 10, 14, 16, 13, 15])]

theorem classes_17_8_3_4 :
    relabelled 17 ([0].map (p_17_8_3_4.getD · [])) p_17_8_3_4 c_17_8_3_4 = true := by
  decide +kernel

/-- Relabellings of the matrices of `p_21_10_5_4`. -/
def c_21_10_5_4 : List (Nat × List Nat) :=
  [(0, [0, 1, 2, 3, 4, 5, 6, 7, 8, 9, 10, 11, 12, 13, 14, 15, 16, 17, 18, 19, 20]),
   (0, [0, 1, 3, 4, 5, 6, 2, 7, 8, 9, 10, 11, 12, 13, 14, 15, 16, 17, 18, 19, 20])]

theorem classes_21_10_5_4 :
    relabelled 21 ([0].map (p_21_10_5_4.getD · [])) p_21_10_5_4 c_21_10_5_4 = true := by
  decide +kernel

/-- Relabellings of the matrices of `p_25_8_3_2`. -/
def c_25_8_3_2 : List (Nat × List Nat) :=
  [(0, [0, 1, 2, 3, 4, 5, 6, 7, 8, 9, 10, 11, 12, 13, 14, 15, 16, 17, 18, 19, 20, 21, 22, 23,
     24])]

theorem classes_25_8_3_2 :
    relabelled 25 ([0].map (p_25_8_3_2.getD · [])) p_25_8_3_2 c_25_8_3_2 = true := by
  decide +kernel

/-- Relabellings of the matrices of `p_27_10_1_5`. -/
def c_27_10_1_5 : List (Nat × List Nat) :=
  [(0, [0, 1, 2, 3, 4, 5, 6, 7, 8, 9, 10, 11, 12, 13, 14, 15, 16, 17, 18, 19, 20, 21, 22, 23, 24,
     25, 26]),
   (0, [0, 1, 2, 3, 4, 5, 6, 7, 8, 10, 9, 11, 12, 13, 14, 15, 16, 17, 18, 19, 20, 21, 22, 23, 24,
     25, 26])]

theorem classes_27_10_1_5 :
    relabelled 27 ([0].map (p_27_10_1_5.getD · [])) p_27_10_1_5 c_27_10_1_5 = true := by
  decide +kernel

theorem cliques_16_6_2_2 :
    (([0, 1].map (p_16_6_2_2.getD · [])).map (fun r => bitCliques 16 r 4)).Nodup := by
  decide +kernel

theorem cliques_16_9_4_6 :
    (([0, 12].map (p_16_9_4_6.getD · [])).map (fun r => bitCliques 16 r 4)).Nodup := by
  decide +kernel

end TDS
