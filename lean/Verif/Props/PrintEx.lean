import Verif.Props.Layout

/-! Examples for C60: texts as numpy prints them. -/

namespace TDS

open Print

example : run [')'] (["5", "2", "0", "1"].map String.toList) =
    (["5 2 0 1", "'*********** answers *************'",
      "array([[0, 1, 1, 0, 0],\n       [1, 0, 0, 1, 0],\n       [1, 0, 0, 0, 1],\n       " ++
      "[0, 1, 0, 0, 1],\n       [0, 0, 1, 1, 0]])"].map String.toList, none) := by
  decide +kernel

/-- Columns of different widths are aligned on the right. -/
example : reprMat [')'] [[10, -1], [0, 5]] = "array([[10, -1],\n       [ 0,  5]])".toList := by
  decide +kernel

example : reprMat [')'] (List.replicate 32 (List.replicate 32 0)) =
    ("array([[0, 0, 0, ..., 0, 0, 0],\n       [0, 0, 0, ..., 0, 0, 0],\n       " ++
    "[0, 0, 0, ..., 0, 0, 0],\n       ...,\n       [0, 0, 0, ..., 0, 0, 0],\n       " ++
    "[0, 0, 0, ..., 0, 0, 0],\n       [0, 0, 0, ..., 0, 0, 0]])").toList := by
  decide +kernel

end TDS
