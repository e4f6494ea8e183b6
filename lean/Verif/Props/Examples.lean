import Verif.Model.Unique
import Verif.Model.Solver
import Verif.Model.Repr

/-! C70: the worked examples in comments, docstrings and self-checks of the source. -/

namespace TDS

open Print

/-- /repo/srg/unique.py:8-14, and the comments at 25-30. -/
theorem C70_unique :
    Unique.encode [[1, 1, 1, 1, 0, 0, 0], [1, 1, 0, 0, 1, 1, 0], [1, 1, 1, 1, 1, 1, 1]] =
      .ok [7, 7, 5, 5, 3, 3, 1] ∧
    Unique.reduce [[1, 1, 1, 1, 0, 0, 0], [1, 1, 0, 0, 1, 1, 0], [1, 1, 1, 1, 1, 1, 1]] =
      .ok ([[1, 1, 0, 0], [1, 0, 1, 0], [1, 1, 1, 1]], [2, 2, 2, 1], [0, 2, 4, 6]) := by
  decide +kernel

/-- The assertion of /repo/srg/unique.py:47-61. -/
theorem C70_expand : (do
    let r ← Unique.reduce [[1, 1, 1, 1, 0, 0, 0], [1, 1, 0, 0, 1, 1, 0], [1, 1, 1, 1, 1, 1, 1]]
    Unique.expand r.1 r.2.1) =
      .ok [[1, 1, 1, 1, 0, 0, 0], [1, 1, 0, 0, 1, 1, 0], [1, 1, 1, 1, 1, 1, 1]] := by
  decide +kernel

/-- The assertions of /repo/srg/fork.py:27-43; the generators yield nothing further. -/
theorem C70_fork :
    (npArgmin [2, 2, 2, 1] >>= Fork.enum 4 [2, 2, 2, 1]) = .ok [(0, 4), (1, 3)] ∧
    (npArgmin [1, 1, 1] >>= Fork.enum 3 [1, 1, 1]) = .ok [(1, 2)] := by
  decide +kernel

/-- The assertions of `test1` in /repo/srg/bounds.py:51-66, which is defined but not called, and the
docstring of `one_element_row_locs` (/repo/srg/bounds.py:25-36). -/
theorem C70_bounds :
    Bounds.lowerUpperBound [[0, 0, 0, 0, 1], [0, 0, 1, 1, 0], [1, 0, 1, 0, 0], [1, 1, 0, 0, 0]]
      [1, 1, 0, 1] [1, 1, 1, 1, 1] = [0, 1, 0, 1, 1] ∧
    Bounds.oneElementRowLocs [[0, 0, 0, 0, 1], [0, 0, 1, 1, 0], [1, 0, 1, 0, 0], [1, 1, 0, 0, 0]] =
      [(0, 4)] := by
  decide +kernel

/-- The last block of /repo/srg/bounds.py:69-78 and the comment at 41-42: of the rows 0, 1 and of the
rows 3, 4 with their only one in the same column, the later ones are kept. -/
theorem C70_bounds_main :
    Bounds.lowerUpperBound [[0, 1], [0, 1], [0, 0], [1, 0], [1, 0], [0, 0]] [4, 4, 0, 4, 4, 0] [4, 4] =
      [4, 4] ∧
    Bounds.oneElementRowLocs [[0, 1], [0, 1], [0, 0], [1, 0], [1, 0], [0, 0]] = [(1, 1), (4, 0)] := by
  decide +kernel

/-- What /repo/srg/partition.py:25-27 prints. -/
theorem C70_partition : Partition.enum 3 [1, 1, 1, 1, 1] =
    .ok [[0, 0, 1, 1, 1], [0, 1, 0, 1, 1], [0, 1, 1, 0, 1], [0, 1, 1, 1, 0], [1, 0, 0, 1, 1],
      [1, 0, 1, 0, 1], [1, 0, 1, 1, 0], [1, 1, 0, 0, 1], [1, 1, 0, 1, 0], [1, 1, 1, 0, 0]] := by
  decide +kernel

/-- The docstring of `_encode` (/repo/srg/gauss_elim.py:72-86), the comments in `_decode`
(/repo/srg/gauss_elim.py:112-123) and the assertions of /repo/srg/gauss_elim.py:148-165. -/
theorem C70_gauss :
    Gauss.encode [[1, 1, 1, 1, 1], [1, 1, 0, 0, 0], [0, 0, 1, 1, 0], [1, 1, 1, 1, 0], [1, 0, 1, 0, 1]]
      [5, 2, 2, 4, 3] = .ok [⟨31, 0, 5⟩, ⟨24, 1, 2⟩, ⟨6, 2, 2⟩, ⟨30, 3, 4⟩, ⟨21, 4, 3⟩] ∧
    [31, 24, 6, 30, 21].mapM Gauss.dec2bin =
      .ok [[1, 1, 1, 1, 1], [1, 1, 0, 0, 0], [1, 1, 0], [1, 1, 1, 1, 0], [1, 0, 1, 0, 1]] ∧
    Gauss.elim [[1, 1, 1, 1, 1], [1, 1, 0, 0, 0], [0, 0, 1, 1, 0], [1, 1, 1, 1, 0], [1, 0, 1, 0, 1]]
      [5, 2, 2, 4, 3] =
      .ok ([[0, 0, 0, 0, 1], [0, 0, 1, 1, 0], [1, 0, 1, 0, 0], [1, 1, 0, 0, 0]], [1, 2, 2, 2]) := by
  decide +kernel

/-- The docstring of `binarize` (/repo/srg/srg.py:64-77) and the comments in `quota`
(/repo/srg/srg.py:35-36). -/
theorem C70_answer :
    (Answer.mk' [0, 3, 3, 1] [0, 3, 7, 11] 13 >>= Answer.quota) = .ok [3, 4, 4, 2] ∧
    (Answer.mk' [0, 3, 3, 1] [0, 3, 7, 11] 13 >>= Answer.binarize) =
      .ok [0, 0, 0, 1, 1, 1, 0, 1, 1, 1, 0, 1, 0] ∧
    (Answer.mk' [-1, -1, -1, -1] [0, 2, 4, 6] 7 >>= Answer.quota) = .ok [2, 2, 2, 1] := by
  decide +kernel

/-- The comments in `reduce_col` (/repo/srg/solver.py:63-68), for the question of
/repo/srg/srg.py:275-285 to which they belong: kept columns, dropped columns and new bounds. -/
theorem C70_reduce_col :
    groups [7, 7, 5, 5, 3, 3, 1] = [(7, [0, 1]), (5, [2, 3]), (3, [4, 5]), (1, [6])] ∧
    (seed 10 6 3 4 >>= fromMatrix >>= fun q => Unique.encode q.A) = .ok [7, 7, 5, 5, 3, 3, 1] ∧
    (seed 10 6 3 4 >>= fromMatrix >>= reduceCol).map
      (fun q => (q.A, q.bounds, q.ans.loc)) =
      .ok ([[1, 1, 0, 0], [1, 0, 1, 0], [1, 1, 1, 1]], [2, 2, 2, 1], [0, 2, 4, 6]) := by
  decide +kernel

/-- What `python -m srg.srg` prints last (/repo/srg/srg.py:283-285). -/
theorem C70_print : (seed 10 6 3 4 >>= fromMatrix).map reprQuestion = .ok
    ("b\tA_(3x7)\n2\t[1 1 1 1 0 0 0]\n2\t[1 1 0 0 1 1 0]\n4\t[1 1 1 1 1 1 1]\n" ++
      "x=\t[? ? ? ? ? ? ?]_(7x1)\tquota=sum(x)=4\nbnd\t[1 1 1 1 1 1 1]\n" ++
      "Answer(value=array([-1, -1, -1, -1, -1, -1, -1], dtype=int8), \n" ++
      "    location=array([0, 1, 2, 3, 4, 5, 6]), len=7)").toList := by
  decide +kernel

end TDS
