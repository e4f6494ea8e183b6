import Verif.Proof.Classify

/-! Relabellings between the stored matrices for (28, 12, 6, 4), checked by the kernel. -/

set_option Elab.async false

namespace TDS

open Database

/-- The representatives. -/
def r_28_12_6_4 : List (List Nat) := [0, 1, 3, 4].map (p_28_12_6_4_0.getD · [])

/-- Relabellings of the matrices of `p_28_12_6_4_0`. -/
def c_28_12_6_4_0 : List (Nat × List Nat) :=
  [(0, [0, 1, 2, 3, 4, 5, 6, 7, 8, 9, 10, 11, 12, 13, 14, 15, 16, 17, 18, 19, 20, 21, 22, 23, 24,
     25, 26, 27]),
   (1, [0, 1, 2, 3, 4, 5, 6, 7, 8, 9, 10, 11, 12, 13, 14, 15, 16, 17, 18, 19, 20, 21, 22, 23, 24,
     25, 26, 27]),
   (1, [0, 1, 2, 3, 5, 4, 6, 7, 8, 9, 10, 11, 12, 13, 14, 15, 16, 17, 18, 19, 21, 20, 24, 25, 22,
     23, 26, 27]),
   (2, [0, 1, 2, 3, 4, 5, 6, 7, 8, 9, 10, 11, 12, 13, 14, 15, 16, 17, 18, 19, 20, 21, 22, 23, 24,
     25, 26, 27]),
   (3, [0, 1, 2, 3, 4, 5, 6, 7, 8, 9, 10, 11, 12, 13, 14, 15, 16, 17, 18, 19, 20, 21, 22, 23, 24,
     25, 26, 27]),
   (3, [0, 1, 2, 3, 4, 5, 7, 6, 8, 9, 10, 11, 12, 13, 14, 15, 16, 17, 18, 19, 20, 21, 23, 22, 25,
     24, 27, 26]),
   (3, [0, 1, 3, 2, 5, 4, 7, 6, 8, 9, 11, 10, 12, 13, 14, 16, 15, 17, 20, 21, 18, 19, 25, 24, 23,
     22, 27, 26]),
   (3, [0, 1, 3, 2, 5, 4, 6, 7, 8, 9, 11, 10, 12, 13, 14, 16, 15, 17, 20, 21, 18, 19, 24, 25, 22,
     23, 26, 27]),
   (2, [1, 0, 2, 3, 4, 5, 6, 7, 13, 14, 15, 16, 17, 8, 9, 10, 11, 12, 18, 19, 20, 21, 22, 23, 24,
     25, 26, 27]),
   (3, [0, 1, 2, 4, 3, 6, 7, 5, 10, 8, 9, 12, 11, 13, 15, 14, 16, 17, 18, 19, 22, 23, 20, 21, 24,
     26, 25, 27]),
   (3, [0, 1, 2, 4, 3, 7, 6, 5, 10, 8, 9, 12, 11, 13, 15, 14, 16, 17, 18, 19, 23, 22, 20, 21, 25,
     27, 24, 26]),
   (2, [0, 1, 2, 4, 3, 6, 7, 5, 9, 10, 8, 11, 12, 13, 14, 15, 16, 17, 18, 19, 22, 23, 20, 21, 24,
     26, 25, 27]),
   (2, [1, 0, 2, 4, 3, 6, 7, 5, 13, 14, 15, 16, 17, 9, 10, 8, 11, 12, 18, 19, 22, 23, 20, 21, 24,
     26, 25, 27]),
   (3, [0, 1, 3, 5, 2, 7, 6, 4, 8, 11, 9, 10, 12, 16, 13, 14, 17, 15, 20, 21, 25, 24, 18, 19, 23,
     27, 22, 26]),
   (3, [0, 1, 3, 5, 2, 6, 7, 4, 8, 11, 9, 10, 12, 16, 13, 14, 17, 15, 20, 21, 24, 25, 18, 19, 22,
     26, 23, 27]),
   (2, [1, 2, 0, 4, 3, 13, 15, 14, 6, 7, 5, 16, 17, 9, 10, 8, 18, 19, 11, 12, 22, 23, 21, 20, 26,
     27, 24, 25]),
   (2, [1, 2, 0, 4, 3, 13, 14, 15, 6, 7, 5, 16, 17, 9, 10, 8, 18, 19, 11, 12, 22, 23, 20, 21, 24,
     25, 26, 27]),
   (3, [0, 3, 1, 2, 5, 8, 9, 11, 4, 6, 7, 10, 12, 14, 13, 16, 20, 21, 15, 17, 19, 18, 24, 25, 26,
     27, 22, 23]),
   (3, [0, 3, 1, 5, 2, 8, 11, 9, 6, 7, 4, 10, 12, 16, 14, 13, 20, 21, 17, 15, 24, 25, 19, 18, 26,
     22, 27, 23]),
   (2, [1, 2, 0, 3, 4, 13, 15, 14, 5, 6, 7, 16, 17, 8, 9, 10, 18, 19, 11, 12, 21, 20, 22, 23, 26,
     27, 24, 25]),
   (2, [1, 2, 0, 3, 4, 13, 14, 15, 5, 6, 7, 16, 17, 8, 9, 10, 18, 19, 11, 12, 20, 21, 22, 23, 24,
     25, 26, 27]),
   (1, [0, 1, 3, 2, 4, 5, 6, 7, 8, 9, 10, 11, 12, 13, 14, 15, 16, 17, 19, 20, 21, 18, 22, 23, 24,
     25, 26, 27]),
   (1, [0, 1, 3, 2, 5, 4, 6, 7, 8, 9, 10, 11, 12, 13, 14, 15, 16, 17, 19, 21, 20, 18, 24, 25, 22,
     23, 26, 27])]

theorem classes_28_12_6_4_0 :
    relabelled 28 r_28_12_6_4 p_28_12_6_4_0 c_28_12_6_4_0 = true := by
  decide +kernel

/-- Relabellings of the matrices of `p_28_12_6_4_1`. -/
def c_28_12_6_4_1 : List (Nat × List Nat) :=
  [(2, [1, 0, 4, 2, 6, 7, 3, 5, 13, 16, 14, 15, 17, 9, 10, 8, 11, 12, 18, 22, 23, 19, 24, 26, 25,
     27, 20, 21]),
   (3, [0, 1, 4, 2, 6, 7, 3, 5, 10, 12, 8, 9, 11, 15, 13, 14, 17, 16, 18, 22, 23, 19, 24, 26, 25,
     27, 20, 21]),
   (3, [0, 1, 5, 3, 7, 6, 2, 4, 11, 8, 9, 12, 10, 16, 17, 13, 14, 15, 20, 25, 24, 21, 23, 27, 22,
     26, 18, 19]),
   (3, [0, 1, 4, 2, 7, 6, 3, 5, 10, 12, 8, 9, 11, 15, 13, 14, 17, 16, 18, 23, 22, 19, 25, 27, 24,
     26, 20, 21]),
   (3, [0, 1, 5, 3, 6, 7, 2, 4, 11, 8, 9, 12, 10, 16, 17, 13, 14, 15, 20, 24, 25, 21, 22, 26, 23,
     27, 18, 19]),
   (2, [0, 1, 4, 2, 6, 7, 3, 5, 9, 10, 8, 11, 12, 13, 16, 14, 15, 17, 18, 22, 23, 19, 24, 26, 25,
     27, 20, 21]),
   (3, [0, 3, 2, 1, 9, 8, 5, 11, 4, 10, 6, 7, 12, 14, 13, 16, 21, 20, 15, 19, 18, 17, 26, 27, 24,
     25, 22, 23]),
   (3, [0, 3, 5, 1, 11, 8, 2, 9, 6, 7, 4, 12, 10, 16, 20, 14, 13, 21, 17, 24, 25, 15, 26, 22, 19,
     18, 27, 23]),
   (1, [0, 3, 1, 2, 4, 5, 8, 9, 6, 7, 10, 11, 12, 13, 14, 19, 20, 21, 15, 16, 17, 18, 22, 23, 24,
     25, 26, 27]),
   (3, [0, 5, 1, 3, 7, 6, 11, 8, 2, 4, 9, 12, 10, 16, 17, 20, 25, 24, 13, 14, 15, 21, 23, 27, 22,
     26, 18, 19]),
   (3, [0, 5, 3, 1, 8, 11, 6, 7, 2, 9, 4, 10, 12, 16, 20, 17, 24, 25, 14, 13, 21, 15, 19, 18, 26,
     22, 27, 23]),
   (1, [3, 0, 1, 2, 4, 5, 8, 9, 13, 14, 19, 20, 21, 6, 7, 10, 11, 12, 15, 16, 17, 18, 22, 23, 24,
     25, 26, 27]),
   (3, [0, 3, 2, 1, 8, 9, 5, 11, 4, 10, 6, 7, 12, 14, 13, 16, 20, 21, 15, 19, 18, 17, 24, 25, 26,
     27, 22, 23]),
   (3, [0, 3, 5, 1, 8, 11, 2, 9, 6, 7, 4, 10, 12, 16, 20, 14, 13, 21, 17, 24, 25, 15, 19, 18, 26,
     22, 27, 23]),
   (1, [0, 3, 1, 2, 5, 4, 8, 9, 6, 7, 10, 11, 12, 13, 14, 19, 21, 20, 15, 16, 17, 18, 24, 25, 22,
     23, 26, 27]),
   (3, [0, 5, 1, 3, 6, 7, 11, 8, 2, 4, 9, 12, 10, 16, 17, 20, 24, 25, 13, 14, 15, 21, 22, 26, 23,
     27, 18, 19]),
   (3, [0, 5, 3, 1, 11, 8, 6, 7, 2, 9, 4, 12, 10, 16, 20, 17, 24, 25, 14, 13, 21, 15, 26, 22, 19,
     18, 27, 23]),
   (1, [3, 0, 1, 2, 5, 4, 8, 9, 13, 14, 19, 21, 20, 6, 7, 10, 11, 12, 15, 16, 17, 18, 24, 25, 22,
     23, 26, 27]),
   (2, [0, 4, 1, 2, 6, 7, 9, 10, 3, 5, 8, 11, 12, 13, 16, 18, 22, 23, 14, 15, 17, 19, 24, 26, 25,
     27, 20, 21]),
   (2, [1, 2, 3, 0, 15, 14, 13, 4, 5, 6, 7, 17, 16, 8, 9, 10, 19, 18, 11, 12, 21, 20, 26, 27, 24,
     25, 22, 23]),
   (2, [1, 2, 3, 0, 14, 15, 13, 4, 5, 6, 7, 17, 16, 8, 9, 10, 19, 18, 11, 12, 20, 21, 24, 25, 26,
     27, 22, 23]),
   (2, [1, 2, 3, 0, 15, 13, 14, 4, 5, 6, 7, 16, 17, 8, 9, 10, 19, 18, 11, 12, 21, 20, 26, 27, 22,
     23, 24, 25]),
   (2, [1, 2, 3, 0, 14, 13, 15, 4, 5, 6, 7, 17, 16, 8, 9, 10, 18, 19, 11, 12, 20, 21, 24, 25, 22,
     23, 26, 27])]

theorem classes_28_12_6_4_1 :
    relabelled 28 r_28_12_6_4 p_28_12_6_4_1 c_28_12_6_4_1 = true := by
  decide +kernel

/-- Relabellings of the matrices of `p_28_12_6_4_2`. -/
def c_28_12_6_4_2 : List (Nat × List Nat) :=
  [(2, [1, 2, 3, 0, 13, 15, 14, 4, 5, 6, 7, 16, 17, 8, 9, 10, 18, 19, 11, 12, 21, 20, 22, 23, 26,
     27, 24, 25]),
   (2, [1, 2, 3, 0, 13, 14, 15, 4, 5, 6, 7, 16, 17, 8, 9, 10, 18, 19, 11, 12, 20, 21, 22, 23, 24,
     25, 26, 27]),
   (1, [3, 0, 4, 1, 5, 2, 8, 9, 13, 19, 20, 14, 21, 6, 7, 12, 10, 11, 22, 23, 17, 15, 16, 24, 25,
     18, 26, 27]),
   (3, [0, 5, 7, 1, 6, 3, 11, 8, 4, 12, 10, 2, 9, 17, 16, 25, 24, 20, 23, 27, 15, 13, 14, 22, 26,
     21, 18, 19]),
   (3, [0, 5, 7, 6, 1, 11, 3, 8, 4, 12, 10, 2, 9, 17, 16, 25, 24, 20, 23, 27, 15, 22, 26, 13, 14,
     21, 18, 19]),
   (1, [0, 3, 4, 1, 5, 2, 8, 9, 6, 7, 12, 10, 11, 13, 19, 20, 14, 21, 22, 23, 17, 15, 16, 24, 25,
     18, 26, 27]),
   (3, [0, 7, 5, 1, 6, 4, 12, 10, 3, 11, 8, 2, 9, 17, 16, 25, 23, 27, 24, 20, 15, 13, 14, 22, 26,
     18, 21, 19]),
   (3, [7, 0, 5, 1, 6, 4, 12, 10, 17, 16, 25, 23, 27, 3, 11, 8, 2, 9, 24, 20, 15, 13, 14, 22, 26,
     18, 21, 19]),
   (3, [0, 7, 5, 6, 1, 4, 12, 10, 11, 3, 8, 2, 9, 17, 16, 25, 23, 27, 24, 20, 15, 22, 26, 13, 14,
     18, 21, 19]),
   (3, [7, 0, 5, 6, 1, 4, 12, 10, 17, 16, 25, 23, 27, 11, 3, 8, 2, 9, 24, 20, 15, 22, 26, 13, 14,
     18, 21, 19]),
   (1, [0, 4, 3, 1, 5, 6, 7, 12, 2, 8, 9, 10, 11, 13, 19, 20, 22, 23, 14, 21, 17, 15, 16, 24, 25,
     26, 27, 18]),
   (1, [3, 0, 1, 4, 5, 2, 8, 9, 13, 14, 19, 20, 21, 6, 7, 12, 10, 11, 17, 15, 16, 22, 23, 24, 25,
     18, 26, 27]),
   (3, [0, 5, 1, 7, 6, 3, 11, 8, 4, 2, 12, 10, 9, 17, 16, 25, 24, 20, 15, 13, 14, 23, 27, 22, 26,
     21, 18, 19]),
   (3, [0, 5, 3, 8, 11, 1, 6, 7, 9, 2, 10, 12, 4, 20, 16, 24, 25, 17, 21, 14, 13, 19, 18, 26, 22,
     15, 27, 23]),
   (1, [0, 3, 1, 4, 5, 2, 8, 9, 6, 7, 12, 10, 11, 13, 14, 19, 20, 21, 17, 15, 16, 22, 23, 24, 25,
     18, 26, 27]),
   (1, [3, 0, 1, 5, 4, 2, 8, 9, 13, 14, 19, 21, 20, 6, 7, 12, 10, 11, 17, 15, 16, 24, 25, 22, 23,
     18, 26, 27]),
   (3, [0, 5, 1, 6, 7, 3, 11, 8, 4, 2, 12, 10, 9, 17, 16, 24, 25, 20, 15, 13, 14, 22, 26, 23, 27,
     21, 18, 19]),
   (3, [0, 5, 3, 11, 8, 1, 6, 7, 9, 2, 12, 10, 4, 20, 16, 24, 25, 17, 21, 14, 13, 26, 22, 19, 18,
     15, 27, 23]),
   (1, [0, 3, 1, 5, 4, 2, 8, 9, 6, 7, 12, 10, 11, 13, 14, 19, 21, 20, 17, 15, 16, 24, 25, 22, 23,
     18, 26, 27]),
   (2, [0, 4, 1, 6, 7, 2, 9, 10, 5, 3, 11, 12, 8, 16, 13, 22, 23, 18, 17, 14, 15, 24, 26, 25, 27,
     19, 20, 21]),
   (3, [0, 1, 5, 7, 6, 3, 4, 2, 11, 8, 12, 10, 9, 17, 16, 15, 13, 14, 25, 24, 20, 23, 27, 22, 26,
     21, 18, 19]),
   (3, [0, 1, 5, 6, 7, 3, 4, 2, 11, 8, 12, 10, 9, 17, 16, 15, 13, 14, 24, 25, 20, 22, 26, 23, 27,
     21, 18, 19]),
   (2, [0, 1, 4, 6, 7, 2, 5, 3, 9, 10, 11, 12, 8, 16, 13, 17, 14, 15, 22, 23, 18, 24, 26, 25, 27,
     19, 20, 21])]

theorem classes_28_12_6_4_2 :
    relabelled 28 r_28_12_6_4 p_28_12_6_4_2 c_28_12_6_4_2 = true := by
  decide +kernel

/-- Relabellings of the matrices of `p_28_12_6_4_3`. -/
def c_28_12_6_4_3 : List (Nat × List Nat) :=
  [(2, [1, 0, 4, 6, 7, 2, 5, 3, 16, 13, 17, 14, 15, 9, 10, 11, 12, 8, 22, 23, 18, 24, 26, 25, 27,
     19, 20, 21]),
   (3, [0, 1, 4, 6, 7, 2, 5, 3, 12, 10, 11, 8, 9, 15, 13, 17, 16, 14, 22, 23, 18, 24, 26, 25, 27,
     19, 20, 21]),
   (3, [0, 1, 4, 7, 6, 2, 5, 3, 12, 10, 11, 8, 9, 15, 13, 17, 16, 14, 23, 22, 18, 25, 27, 24, 26,
     19, 20, 21]),
   (3, [0, 3, 5, 11, 8, 1, 9, 2, 6, 7, 12, 10, 4, 20, 16, 21, 14, 13, 24, 25, 17, 26, 22, 19, 18,
     15, 27, 23]),
   (3, [0, 3, 2, 9, 8, 1, 11, 5, 10, 4, 12, 6, 7, 14, 13, 21, 20, 16, 19, 18, 15, 26, 27, 24, 25,
     17, 22, 23]),
   (3, [0, 3, 5, 8, 11, 1, 9, 2, 6, 7, 10, 12, 4, 20, 16, 21, 14, 13, 24, 25, 17, 19, 18, 26, 22,
     15, 27, 23]),
   (3, [0, 3, 2, 8, 9, 1, 11, 5, 10, 4, 12, 6, 7, 14, 13, 20, 21, 16, 19, 18, 15, 24, 25, 26, 27,
     17, 22, 23]),
   (1, [0, 1, 3, 4, 5, 2, 6, 7, 8, 9, 12, 10, 11, 13, 14, 17, 15, 16, 19, 20, 21, 22, 23, 24, 25,
     18, 26, 27]),
   (1, [0, 1, 3, 5, 4, 2, 6, 7, 8, 9, 12, 10, 11, 13, 14, 17, 15, 16, 19, 21, 20, 24, 25, 22, 23,
     18, 26, 27]),
   (3, [0, 7, 1, 5, 6, 4, 12, 10, 3, 2, 11, 8, 9, 17, 16, 25, 23, 27, 15, 13, 14, 24, 20, 22, 26,
     18, 21, 19]),
   (3, [7, 0, 1, 5, 6, 4, 12, 10, 17, 16, 25, 23, 27, 3, 2, 11, 8, 9, 15, 13, 14, 24, 20, 22, 26,
     18, 21, 19]),
   (3, [0, 1, 7, 5, 6, 4, 3, 2, 12, 10, 11, 8, 9, 17, 16, 15, 13, 14, 25, 23, 27, 24, 20, 22, 26,
     18, 21, 19]),
   (2, [0, 1, 6, 4, 7, 5, 2, 3, 9, 11, 10, 12, 8, 16, 17, 13, 14, 15, 22, 24, 26, 23, 18, 25, 27,
     20, 19, 21]),
   (3, [0, 1, 6, 5, 7, 4, 3, 2, 11, 12, 8, 10, 9, 17, 15, 16, 13, 14, 24, 22, 26, 25, 20, 23, 27,
     18, 21, 19]),
   (3, [0, 1, 6, 4, 7, 5, 2, 3, 12, 11, 10, 8, 9, 15, 17, 13, 16, 14, 22, 24, 26, 23, 18, 25, 27,
     20, 19, 21]),
   (2, [1, 0, 6, 4, 7, 5, 2, 3, 16, 17, 13, 14, 15, 9, 11, 10, 12, 8, 22, 24, 26, 23, 18, 25, 27,
     20, 19, 21]),
   (3, [0, 1, 7, 4, 6, 5, 2, 3, 12, 10, 11, 8, 9, 17, 16, 15, 13, 14, 23, 25, 27, 22, 18, 24, 26,
     20, 19, 21]),
   (3, [0, 3, 11, 5, 8, 9, 1, 2, 6, 12, 7, 10, 4, 20, 21, 16, 14, 13, 24, 26, 22, 25, 17, 19, 18,
     27, 15, 23]),
   (3, [0, 3, 9, 2, 8, 11, 1, 5, 10, 12, 4, 6, 7, 14, 21, 13, 20, 16, 19, 26, 27, 18, 15, 24, 25,
     22, 17, 23]),
   (3, [0, 3, 11, 9, 8, 5, 2, 1, 12, 6, 10, 7, 4, 21, 20, 14, 16, 13, 26, 24, 22, 19, 27, 25, 18,
     17, 15, 23]),
   (3, [0, 3, 9, 11, 8, 2, 5, 1, 12, 10, 6, 4, 7, 21, 14, 20, 13, 16, 26, 19, 27, 24, 22, 18, 25,
     15, 17, 23]),
   (2, [1, 6, 0, 4, 7, 5, 16, 17, 2, 3, 13, 14, 15, 9, 11, 22, 24, 26, 10, 12, 8, 23, 18, 25, 27,
     20, 21, 19]),
   (3, [7, 0, 1, 4, 6, 5, 12, 10, 17, 16, 23, 25, 27, 2, 3, 11, 8, 9, 15, 13, 14, 22, 18, 24, 26,
     20, 21, 19])]

theorem classes_28_12_6_4_3 :
    relabelled 28 r_28_12_6_4 p_28_12_6_4_3 c_28_12_6_4_3 = true := by
  decide +kernel

/-- Relabellings of the matrices of `p_28_12_6_4_4`. -/
def c_28_12_6_4_4 : List (Nat × List Nat) :=
  [(3, [0, 7, 1, 4, 6, 5, 12, 10, 2, 3, 11, 8, 9, 17, 16, 23, 25, 27, 15, 13, 14, 22, 18, 24, 26,
     20, 21, 19]),
   (3, [0, 7, 4, 10, 12, 6, 1, 5, 2, 9, 8, 11, 3, 23, 27, 25, 17, 16, 18, 22, 15, 13, 19, 26, 21,
     24, 14, 20]),
   (3, [7, 0, 4, 10, 12, 6, 1, 5, 23, 27, 25, 17, 16, 2, 9, 8, 11, 3, 18, 22, 15, 13, 19, 26, 21,
     24, 14, 20]),
   (3, [0, 3, 8, 5, 11, 9, 2, 1, 10, 6, 7, 12, 4, 20, 16, 21, 14, 13, 24, 25, 19, 18, 17, 26, 22,
     27, 15, 23]),
   (3, [0, 3, 8, 2, 9, 11, 5, 1, 10, 4, 12, 6, 7, 20, 14, 13, 21, 16, 19, 18, 24, 25, 15, 26, 27,
     22, 17, 23]),
   (3, [7, 0, 4, 1, 6, 12, 10, 5, 23, 17, 16, 27, 25, 2, 3, 11, 9, 8, 15, 13, 22, 18, 14, 26, 24,
     21, 19, 20]),
   (3, [0, 7, 4, 1, 6, 12, 10, 5, 2, 3, 11, 9, 8, 23, 17, 16, 27, 25, 15, 13, 22, 18, 14, 26, 24,
     21, 19, 20]),
   (1, [0, 4, 1, 3, 5, 6, 7, 12, 2, 8, 9, 10, 11, 13, 19, 20, 22, 23, 14, 17, 15, 16, 21, 24, 25,
     26, 27, 18]),
   (1, [0, 1, 4, 3, 5, 6, 7, 2, 12, 8, 9, 10, 11, 13, 14, 17, 15, 16, 19, 20, 22, 23, 21, 24, 25,
     26, 27, 18]),
   (1, [0, 1, 5, 3, 4, 6, 7, 2, 8, 9, 12, 10, 11, 17, 13, 14, 15, 16, 19, 21, 24, 25, 20, 22, 23,
     26, 27, 18]),
   (2, [0, 1, 6, 7, 4, 5, 2, 3, 9, 11, 10, 12, 8, 16, 17, 13, 14, 15, 22, 24, 26, 23, 25, 27, 18,
     20, 19, 21]),
   (3, [0, 1, 7, 6, 5, 4, 3, 2, 12, 10, 11, 8, 9, 17, 16, 15, 13, 14, 25, 23, 27, 24, 22, 26, 20,
     18, 21, 19]),
   (3, [0, 1, 6, 7, 5, 4, 3, 2, 12, 11, 10, 8, 9, 17, 15, 16, 13, 14, 24, 22, 26, 25, 23, 27, 20,
     18, 21, 19]),
   (3, [0, 1, 6, 7, 4, 5, 2, 3, 12, 11, 10, 8, 9, 17, 15, 16, 13, 14, 22, 24, 26, 23, 25, 27, 18,
     20, 19, 21]),
   (3, [0, 1, 7, 6, 4, 5, 2, 3, 12, 10, 11, 8, 9, 17, 16, 15, 13, 14, 23, 25, 27, 22, 24, 26, 18,
     20, 19, 21]),
   (2, [1, 0, 6, 7, 4, 5, 2, 3, 16, 17, 13, 14, 15, 9, 11, 10, 12, 8, 22, 24, 26, 23, 25, 27, 18,
     20, 19, 21]),
   (3, [0, 7, 1, 6, 5, 4, 12, 10, 3, 2, 11, 8, 9, 17, 16, 25, 23, 27, 15, 13, 14, 24, 22, 26, 20,
     18, 21, 19]),
   (3, [7, 0, 1, 6, 5, 4, 12, 10, 17, 16, 25, 23, 27, 3, 2, 11, 8, 9, 15, 13, 14, 24, 22, 26, 20,
     18, 21, 19]),
   (3, [0, 3, 11, 8, 5, 9, 2, 1, 6, 12, 10, 7, 4, 20, 21, 16, 14, 13, 24, 26, 22, 25, 19, 18, 17,
     27, 15, 23]),
   (3, [0, 3, 9, 8, 2, 11, 5, 1, 10, 12, 4, 6, 7, 14, 21, 20, 13, 16, 19, 26, 27, 18, 24, 25, 15,
     22, 17, 23]),
   (3, [0, 3, 11, 8, 9, 5, 2, 1, 12, 6, 10, 7, 4, 20, 21, 14, 16, 13, 24, 26, 22, 19, 25, 18, 27,
     17, 15, 23]),
   (3, [0, 3, 9, 8, 11, 2, 5, 1, 10, 12, 6, 4, 7, 21, 14, 20, 13, 16, 19, 26, 27, 24, 18, 25, 22,
     15, 17, 23]),
   (3, [0, 7, 1, 6, 4, 5, 12, 10, 2, 3, 11, 8, 9, 17, 16, 23, 25, 27, 15, 13, 14, 22, 24, 26, 18,
     20, 21, 19])]

theorem classes_28_12_6_4_4 :
    relabelled 28 r_28_12_6_4 p_28_12_6_4_4 c_28_12_6_4_4 = true := by
  decide +kernel

/-- Relabellings of the matrices of `p_28_12_6_4_5`. -/
def c_28_12_6_4_5 : List (Nat × List Nat) :=
  [(3, [7, 0, 1, 6, 4, 5, 12, 10, 17, 16, 23, 25, 27, 2, 3, 11, 8, 9, 15, 13, 14, 22, 24, 26, 18,
     20, 21, 19]),
   (2, [1, 6, 0, 7, 4, 5, 16, 17, 2, 3, 13, 14, 15, 9, 11, 22, 24, 26, 10, 12, 8, 23, 25, 27, 18,
     20, 21, 19]),
   (3, [0, 7, 4, 12, 10, 6, 1, 5, 2, 9, 11, 8, 3, 23, 27, 25, 17, 16, 22, 18, 15, 13, 26, 21, 19,
     24, 14, 20]),
   (3, [7, 0, 4, 12, 10, 6, 1, 5, 23, 27, 25, 17, 16, 2, 9, 11, 8, 3, 22, 18, 15, 13, 26, 21, 19,
     24, 14, 20]),
   (3, [0, 3, 8, 11, 5, 9, 2, 1, 10, 6, 12, 7, 4, 20, 21, 16, 14, 13, 24, 25, 19, 18, 26, 22, 17,
     27, 15, 23]),
   (3, [0, 3, 8, 9, 2, 11, 5, 1, 10, 12, 4, 6, 7, 20, 14, 21, 13, 16, 19, 18, 24, 25, 26, 27, 15,
     22, 17, 23]),
   (3, [7, 0, 4, 6, 1, 12, 10, 5, 23, 17, 16, 27, 25, 2, 11, 3, 9, 8, 15, 22, 13, 18, 26, 24, 14,
     21, 19, 20]),
   (3, [0, 7, 4, 6, 1, 12, 10, 5, 2, 11, 3, 9, 8, 23, 17, 16, 27, 25, 15, 22, 13, 18, 26, 24, 14,
     21, 19, 20]),
   (3, [0, 3, 8, 11, 9, 5, 2, 1, 10, 12, 6, 7, 4, 20, 21, 14, 16, 13, 24, 19, 25, 18, 26, 22, 27,
     17, 15, 23]),
   (3, [0, 3, 8, 9, 11, 2, 5, 1, 10, 12, 6, 4, 7, 20, 21, 14, 13, 16, 19, 24, 18, 25, 26, 27, 22,
     15, 17, 23]),
   (3, [0, 7, 4, 12, 6, 10, 1, 5, 2, 11, 9, 8, 3, 23, 27, 17, 25, 16, 22, 15, 18, 13, 26, 21, 24,
     19, 14, 20]),
   (3, [7, 0, 4, 12, 6, 10, 1, 5, 23, 27, 17, 25, 16, 2, 11, 9, 8, 3, 22, 15, 18, 13, 26, 21, 24,
     19, 14, 20]),
   (3, [0, 7, 4, 6, 12, 1, 10, 5, 2, 11, 9, 3, 8, 23, 17, 27, 16, 25, 22, 15, 13, 18, 26, 24, 21,
     14, 19, 20]),
   (3, [7, 0, 4, 6, 12, 1, 10, 5, 23, 17, 27, 16, 25, 2, 11, 9, 3, 8, 22, 15, 13, 18, 26, 24, 21,
     14, 19, 20]),
   (2, [1, 6, 7, 0, 4, 5, 16, 17, 2, 3, 13, 14, 15, 9, 11, 22, 24, 26, 10, 12, 23, 25, 27, 8, 18,
     20, 21, 19]),
   (1, [0, 4, 1, 5, 3, 6, 7, 12, 2, 8, 9, 10, 11, 13, 19, 20, 22, 23, 17, 14, 15, 16, 21, 24, 25,
     26, 27, 18]),
   (1, [0, 1, 4, 5, 3, 6, 7, 2, 12, 8, 9, 10, 11, 13, 17, 14, 15, 16, 19, 20, 22, 23, 21, 24, 25,
     26, 27, 18]),
   (1, [0, 1, 5, 4, 3, 6, 7, 2, 8, 12, 9, 10, 11, 17, 13, 14, 15, 16, 19, 21, 24, 25, 20, 22, 23,
     26, 27, 18]),
   (2, [1, 2, 14, 15, 13, 3, 4, 0, 17, 5, 16, 6, 7, 19, 18, 8, 9, 10, 20, 24, 25, 21, 26, 27, 22,
     23, 11, 12]),
   (2, [1, 2, 14, 15, 3, 13, 0, 4, 17, 5, 16, 6, 7, 19, 18, 8, 9, 10, 20, 24, 25, 21, 26, 27, 11,
     12, 22, 23]),
   (1, [0, 1, 6, 7, 5, 4, 3, 2, 12, 10, 11, 8, 9, 17, 15, 16, 13, 14, 24, 22, 26, 25, 23, 27, 19,
     21, 20, 18]),
   (1, [0, 1, 6, 7, 4, 5, 3, 2, 12, 10, 11, 8, 9, 17, 15, 16, 13, 14, 22, 24, 26, 23, 25, 27, 19,
     20, 21, 18]),
   (2, [1, 2, 14, 13, 15, 3, 4, 0, 17, 5, 16, 6, 7, 18, 19, 8, 9, 10, 20, 24, 25, 21, 22, 23, 26,
     27, 11, 12])]

theorem classes_28_12_6_4_5 :
    relabelled 28 r_28_12_6_4 p_28_12_6_4_5 c_28_12_6_4_5 = true := by
  decide +kernel

/-- Relabellings of the matrices of `p_28_12_6_4_6`. -/
def c_28_12_6_4_6 : List (Nat × List Nat) :=
  [(2, [1, 2, 14, 3, 15, 13, 0, 4, 5, 17, 16, 6, 7, 19, 18, 8, 9, 10, 20, 24, 25, 21, 11, 12, 26,
     27, 22, 23]),
   (2, [1, 2, 14, 13, 3, 15, 4, 0, 5, 17, 16, 6, 7, 18, 19, 8, 9, 10, 20, 24, 25, 21, 22, 23, 11,
     12, 26, 27]),
   (2, [1, 2, 14, 3, 13, 15, 0, 4, 5, 17, 16, 6, 7, 18, 19, 8, 9, 10, 20, 24, 25, 21, 11, 12, 22,
     23, 26, 27]),
   (1, [0, 1, 6, 5, 7, 4, 3, 2, 12, 10, 8, 11, 9, 17, 15, 16, 13, 14, 24, 22, 26, 25, 19, 21, 23,
     27, 20, 18]),
   (1, [0, 1, 6, 4, 7, 5, 3, 2, 12, 10, 11, 8, 9, 17, 15, 13, 16, 14, 22, 24, 26, 23, 19, 20, 25,
     27, 21, 18]),
   (1, [0, 1, 6, 5, 4, 7, 3, 2, 12, 10, 8, 11, 9, 17, 15, 13, 16, 14, 24, 22, 26, 19, 25, 21, 23,
     20, 27, 18]),
   (1, [0, 1, 6, 4, 5, 7, 3, 2, 12, 10, 8, 11, 9, 17, 15, 13, 16, 14, 22, 24, 26, 19, 23, 20, 25,
     21, 27, 18]),
   (2, [1, 2, 3, 15, 14, 13, 0, 4, 5, 17, 16, 6, 7, 8, 19, 18, 9, 10, 21, 20, 11, 12, 26, 27, 24,
     25, 22, 23]),
   (2, [1, 2, 3, 14, 15, 13, 0, 4, 5, 17, 16, 6, 7, 8, 19, 18, 9, 10, 20, 21, 11, 12, 24, 25, 26,
     27, 22, 23]),
   (2, [1, 2, 3, 15, 13, 14, 0, 4, 5, 16, 17, 6, 7, 8, 19, 18, 9, 10, 21, 20, 11, 12, 26, 27, 22,
     23, 24, 25]),
   (2, [1, 2, 3, 14, 13, 15, 0, 4, 5, 17, 16, 6, 7, 8, 18, 19, 9, 10, 20, 21, 11, 12, 24, 25, 22,
     23, 26, 27]),
   (2, [1, 2, 3, 13, 15, 14, 0, 4, 5, 16, 17, 6, 7, 8, 18, 19, 9, 10, 21, 20, 11, 12, 22, 23, 26,
     27, 24, 25]),
   (2, [1, 2, 3, 13, 14, 15, 0, 4, 5, 16, 17, 6, 7, 8, 18, 19, 9, 10, 20, 21, 11, 12, 22, 23, 24,
     25, 26, 27]),
   (1, [0, 1, 5, 6, 7, 4, 3, 2, 8, 12, 10, 11, 9, 17, 15, 16, 13, 14, 24, 25, 19, 21, 22, 26, 23,
     27, 20, 18]),
   (1, [0, 1, 4, 6, 7, 5, 3, 2, 12, 10, 11, 8, 9, 13, 17, 15, 16, 14, 22, 23, 19, 20, 24, 26, 25,
     27, 21, 18]),
   (1, [0, 4, 1, 6, 7, 5, 3, 12, 2, 10, 11, 8, 9, 13, 22, 23, 19, 20, 17, 15, 16, 14, 24, 26, 25,
     27, 21, 18]),
   (1, [0, 1, 5, 6, 4, 7, 3, 2, 8, 12, 10, 11, 9, 17, 15, 13, 16, 14, 24, 19, 25, 21, 22, 26, 23,
     20, 27, 18]),
   (1, [0, 1, 4, 6, 5, 7, 3, 2, 12, 10, 8, 11, 9, 13, 17, 15, 16, 14, 22, 19, 23, 20, 24, 26, 25,
     21, 27, 18]),
   (1, [0, 4, 1, 6, 5, 7, 3, 12, 2, 10, 8, 11, 9, 13, 22, 19, 23, 20, 17, 15, 16, 14, 24, 26, 25,
     21, 27, 18]),
   (1, [0, 1, 5, 4, 6, 7, 3, 2, 8, 12, 10, 11, 9, 17, 13, 15, 16, 14, 19, 24, 25, 21, 22, 23, 20,
     26, 27, 18]),
   (1, [0, 1, 4, 5, 6, 7, 3, 2, 12, 8, 10, 11, 9, 13, 17, 15, 16, 14, 19, 22, 23, 20, 24, 25, 21,
     26, 27, 18]),
   (1, [0, 4, 1, 5, 6, 7, 3, 12, 2, 8, 10, 11, 9, 13, 19, 22, 23, 20, 17, 15, 16, 14, 24, 25, 21,
     26, 27, 18]),
   (0, [0, 1, 3, 4, 5, 6, 7, 2, 8, 9, 10, 11, 12, 13, 14, 15, 16, 17, 18, 19, 20, 21, 22, 23, 24,
     25, 26, 27])]

theorem classes_28_12_6_4_6 :
    relabelled 28 r_28_12_6_4 p_28_12_6_4_6 c_28_12_6_4_6 = true := by
  decide +kernel

/-- Numbers of sequences of 4 pairwise adjacent vertices. -/
theorem cliques_28_12_6_4 : r_28_12_6_4.map (fun r => bitCliques 28 r 4) =
    [6720, 5952, 5760, 5760] := by
  decide +kernel

/-- Numbers of sequences of 6 pairwise adjacent vertices, for the last two. -/
theorem cliques6_28_12_6_4 : (r_28_12_6_4.drop 2).map (fun r => bitCliques 28 r 6) = [2160, 0] := by
  decide +kernel

end TDS
