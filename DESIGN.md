# Formal model of two_dist_set (strongly regular graph enumeration)

Source: /repo (python).  Model and proofs: /verif/lean (Lean 4.33, Mathlib).

## Layout

| file | content |
|---|---|
| `Verif/Model/*.lean` | executable model, function by function, each definition citing /repo lines |
| `Verif/Model/Data*.lean` | the matrices stored under `srg/database`, as lists of row numbers |
| `Verif/Model/Heap.lean` | second model of the search in which every array has an address (C39) |
| `Verif/Model/HeapQ.lean` | CPython's `heapq`, and the elimination written on top of it (C57) |
| `Verif/Model/Trace.lean` | `solve` as a sequence of calls and yields (C65) |
| `Verif/Model/Width.lean` | the search with the number formats left open (C59) |
| `Verif/Model/Checked.lean` | the search with one added check; not code of /repo (C62) |
| `Verif/Model/Quota.lean` | the search without one guard; not code of /repo (C80) |
| `Verif/Model/Opt.lean` | the program without its assertions, as under `python -O` (C81) |
| `Verif/Model/Tests.lean`, `TestsEig` | the checks made by `tests/` (C48, C49, C52) |
| `Verif/Spec.lean`, `SpecQ`, `SpecM`, `SpecG`, `SpecN`, `SpecP` | specification vocabulary (strongly regular matrix, relabelling, equation systems, ...), independent of the model |
| `Verif/Proof/*.lean` | helper lemmas and invariants |
| `Verif/Props/*.lean` | the property theorems `Cnn_...`, with non-vacuity examples beside them |
| `Verif/Run/*.lean` | kernel evaluations of the modelled search for small parameters |
| `Verif/Find/*.lean` | kernel evaluations of an exhaustive search that is proved complete (C45-C47) |

## Modelling conventions

* Python exceptions are values (`Res α = Except Err α`).  A generator is modelled by the list of
  values it yields, or the exception it ends with.
* numpy arrays are lists.  `int8` storage wraps (`i8`), the `int64` shift/sum of the two `_encode`
  functions wraps (`i64`).  `sum()` of an int8 array is an int64 and is not wrapped.
* In numpy `Question.b` is int64 until the first elimination, the model wraps it to int8 from the
  start.  C59 shows that this makes no difference, for any choice of the formats.
* In-place mutation is modelled by returning the new value.  `Model/Heap.lean` redoes the search with
  addresses, copies and in-place writes, and C39 shows that both give the same answer.
* `while` loops carry a step budget (`Err.fuel` when exhausted); termination theorems show that the
  budget is never exhausted.
* numpy argsort tie-breaking and Python set order are parameters / arbitrary permutations.
* Stored matrices are written as numbers, one per row; `Model/Data.lean` unpacks them.
* Floats (`utils.eig`, `utils.determinant`) are modelled as real numbers.

## Trusted base

* Lean's kernel, and the axioms `propext`, `Classical.choice`, `Quot.sound` (no others).
* Reading of the Python source into `Verif/Model`, and the transcription of the stored matrices.
* Library contracts: numpy indexing/delete/where/argmin/diff/dot/hstack; int8/int64 wrap-around, left
  shifts by 64 or more give 0;
  that the C version of `heapq` does what the Python version does (`Model/HeapQ.lean` transcribes the
  latter and C57 proves what is used of it); dict insertion order; `sorted` is a stable sort by the comparison;
  `np.argsort` returns some permutation that sorts; numpy's printer with its default options
  (`Model/Print.lean`).
* Floating-point arithmetic is exact in `Model/Eig.lean`; `Model/EigF.lean` has the rounding as a
  parameter, without overflow and underflow (C72).
* Not modelled: printing other than that of the answers and questions, terminal colours, layout and
  rendering of pictures, importlib/pkgutil internals other than the order of loading (`Model/Imports.lean`),
  what cython makes of the copied files, timing.

## Plan per property

* C01 completeness: induction over rows.  A relabelling of the given graph agrees with some matrix
  in the level-R list; relabel inside classes of equal columns so that the next row is
  left-justified (minimise a weight over the finite set of class-preserving permutations), apply C07.
* C02 soundness: row-level soundness is false (C08), so: inequality version for all pairs, exact last
  row, and "all row sums k implies strongly regular" by double counting: `_partial`.
* C03, C04, C05: induction over levels with C09, C10.
* C06: direct computation on `fromMatrix`.
* C07, C09, C10, C15, C17, C18: one invariant `Inv` on questions (0/1 rectangular system, every
  column nonzero, columns distinct, bookkeeping of unknowns, magnitude bounds, and a *certificate*:
  a set of equations that partitions the columns with right-hand sides summing to at most the
  quota, which is what keeps the fork quota nonnegative).  Each step is shown to keep `Inv`, to keep
  all admissible assignments, and to raise only NoSolution.
* C08: refuted by evaluation of the model on a reachable seed; inequality version proved.
* C11: bucket argument on `groups`.
* C12-C14: binary keys; `mk & k == mk` iff containment of 0/1 rows; measure = sum of keys.
* C16: permutation invariance of every ingredient.
* C19, C20: list induction.
* C21-C23: positional-code injectivity, wrap-around lemmas; negations by evaluation at 65 rows / 64
  columns.
* C24: insertion-sort contract, lexicographic order.
* C25-C27: model of `AdjMat.sort` with argsort as a parameter.
* C28-C32: algebra over finite sums; `SimpleGraph.IsSRGWith` from Mathlib is used as independent
  specification where possible.
* C33: decimal printing/parsing on character lists.
* C34, C35, C36, C37: list induction.
* C38: composition of C04, C05, C24, C31.
* C39: store model of arrays with addresses; separation invariant (`Own`, `Stack`) kept by each step,
  then simulation of the value model.
* C40: A² = k I + l A + u (J - I - A); the all-one vector and its complement diagonalise A; floats are
  real numbers.
* C41, C42: evaluation of the stored lists by the kernel.
* C43: the question invariant implies the Python consistency check, at every pass.
* C44: C01 strengthened: a strongly regular matrix is returned iff every row is left-justified inside
  the classes of columns that agree on the rows above (`Justified`).
* C45-C47: an independent search with packed rows is proved exhaustive for justified matrices
  (Proof/Fast, Proof/Pack, Proof/Canon), run in the kernel, and compared with the stored lists;
  isomorphisms and invariants (Find/Iso, Proof/Classify) count the graphs.
* C48, C49: the test functions as predicates; the matrix identity is turned into the counting
  definition (Proof/Identity), witnesses show what the tests let through.
* C50: `maximize` on sorted windows does nothing; justified matrices have sorted windows.
* C51: evaluation of single steps; for the missed graph: a strongly regular result would have to equal
  the cocktail party graph row by row (C44 argument up to row 63), but the search drops it at row 65.
* C52: the spectrum of C40 with integral eigenvalues.
* C53, C54: list induction over the nonzero entries; C25, C29 and C45 for `exp.py`.
* C55: the sum of the bounds of a question does not rise in a simplification pass, and drops by
  the bound of the forked unknown in a fork; there are at most that many children plus one.
* C56: counting walks of length two from each vertex; the last row is exact by C02. `C56_inside` splits what is missing at a set of vertices into pairs inside the set and pairs leaving it.
* C57: `_siftup` and `_siftdown` by the usual invariant (heap condition with a hole); the elimination by
  uniqueness of the sorted arrangement of a list.
* C58: with C44, two numberings justified in the sense of C44 of an equivalence relation with classes of equal
  size coincide, row by row.
* C59: `Model/Width.lean` copies the search with a rounding function at each of the ten places where a
  number is stored.  The range facts come from the invariants behind C01.
* C60: `Model/Print.lean` follows numpy's array printer (line wrapping, shortening above 1000 entries).
  The reader in `Props/Print.lean` only knows digits and closing brackets; `Props/Layout.lean` gives the
  exact text.
* C61: with `u = 0` adjacency in a result is transitive, and a row that starts a clique meets a single
  class of columns, where the elimination never branches (`Proof/Single.lean`, `Proof/Cliques.lean`).
* C62: `Model/Checked.lean` is not a model of code in /repo but of /repo with one added check. The two
  programs are compared pass by pass: as long as the corrected one goes on both hold the same question, and
  when it stops the question had no solution (`Proof/Checked.lean`, `Proof/CheckedM.lean`).
* C63: everything the search knows about `u` it reads off the two seed rows, which do not depend on it;
  the remainder comes from counting walks of length two from the last vertex, whose row is exact.
* C64: by C44 a numbering of `G` is found exactly when its matrix is justified, and two numberings give
  the same matrix exactly when they differ by an automorphism; sorting the rows one after another never
  moves a clique at the beginning (`exists_canon_fix`).
* C65: `Model/Trace.lean` gives `solve` as a sequence of events (calls of `advance`, yields, and a final
  exception if any); all matrices of a level have the same number of rows, so they are finished together.
* C66: `Model/DbMain.lean` takes what `from srg import util` finds as a parameter, so that the lines
  behind the failing import can be modelled too.
* C67: `Spec.rounds` iterates a step over a list; it is applied to `advance`, so that an interrupted
  search is described without the loop of `solve`.
* C68: `Spec.numbers` reads the maximal stretches of digits and signs of a text by itself; the printed
  texts of numpy arrays are trusted as transcribed in `Model/Print.lean` and `Model/Repr.lean`.
  `Spec.pieces` cuts a list into pieces of equal size; the wrapping loop is shown to put one piece on a line.
* C69: ones that come first in a class are determined by their number; the map from continuations to
  counts is injective into a product of ranges.
* C70: evaluation of the model on the inputs written in the source.
* C71: C29 makes the complement strongly regular, C01 puts a numbering of it among the results; complementing commutes with renumbering. The numbers use C46.
* C72: in the non-conference case all intermediate results are integers below 2^53, by the integrality in C40. In the conference case relative errors multiply: at most 32 factors, and the determinant is at most 14·7^14 for v ≤ 29. The determinant for (37,18,8,9) is 2·3^38, which has more than 53 binary digits.
* C73: C43 gives the comparison and the check, C68 that different questions are printed differently.
* C74: C67 cuts the search into independent parts; the matrices of a level are distinct (C04 argument).
* C75: the counting condition leaves nineteen parameter sets with 0 < u < k <= 5; the search is evaluated by the kernel on each (`Run/Low.lean`, and `Run/R26a-d.lean` in parts joined by C67 for (26,5,0,1)), and five more for v <= 12; u = 0 and u = k by C61 and C56/C58. C01 carries the outcome to graphs.
* C76: the families are defined in `SpecP.lean`; common neighbours are counted line by line (`Proof/Family.lean`), for Paley graphs by a Jacobi sum (`Proof/Paley.lean`); C01 does the rest.
* C77: the row of the last vertex of a result is exact, and the first vertex has degree `k`; counting around these two
  vertices excludes any result, right or wrong.
* C78: walks of length two from a vertex over the neighbours of an exact vertex are counted in two ways.
* C79: a solution of a question stays one when it is sorted within the classes of equal columns.
  Consistency of the question does not help against wrong rows, because branches of the search are inconsistent.
* C80: known values plus quota are the same before and after every step, so at a leaf the quota left over
  is what the row lacks. The check without the guard differs from the check in /repo only there.
* C81: the two programs are compared by one relation, "the first fails with AssertionError or both agree",
  which every construct of the model keeps. Finding: the check of the parameters on the command line is an
  `assert`, so `python -O -m srg 5 2 0 7` prints the pentagon.
* C82: one graph for each parameter set is given by its rows as numbers and checked in the kernel
  (Proof/Pending.lean); C01 then says that the search finds it. Finding: `test_determinant` would reject correct
  solutions for twelve of the twenty sets, because the product of the eigenvalues exceeds 64 bits.
* C83: Model/Imports.lean has the import statements of all files. Findings: click is missing in `install_requires`,
  `packages=['srg']` leaves the database out of an installation, srg/partition.py is not used by anything, and
  profile_performance.sh runs a file that is not in the repository.
* C84: by C78 a single deficient vertex forces every common-neighbour count, so the vertex, its neighbours and
  the rest span an invariant space; outside of it the matrix has two eigenvalues, and the trace of a projection is
  an integer (Proof/Lone.lean). Comparing with C40 shows that no right graph has the same parameters.
* C85: existence by explicit matrices (stored ones, those of C82 and Proof/Exist.lean) and completeness (C01);
  non-existence by integrality (C40) and a range check in the kernel, which leaves 12 sets: three are settled by
  the two-squares argument, four by the Krein condition (Proof/Param.lean), two by the absolute bound
  (Proof/Absolute.lean); three are left out of the statement.

## Findings (code versus property)

* `gauss_elim._remove_zerokeys` discards contradictory equations `0 = c`; `solve_question` can yield
  rows that violate the system (C08), e.g. from `_seed(5,3,1,3)`.
* `unique._encode` overflows int64 from 65 rows on, `gauss_elim._encode` at 64 columns: the search is
  only right up to v = 66 (C22, C23).
* `Answer.__init__` accepts decreasing locations although its message says "not sorted" (C35).
* `sorter.maximize` raises TypeError on complete graphs (C27).
* `python -m srg 2 1 0 0` raises AssertionError although the graph K2 exists (the seed is already
  solved and `advance` asserts it is not).
* `srg/database/__main__.py` imports `srg.util` and calls `util.assert_arg`, neither of which
  exists, so the documented `python -m srg.database` always fails with ImportError.
* `assert_srg` does not look at signs: `python -m srg 6 4 -4 28` prints the octahedron, and
  `python -m srg 5 0 -2 0` prints a matrix with a one on the diagonal (C03, C38).
* `solve` can return matrices that are not strongly regular: (22,9,4,3) gives a non-regular one (C02).
* `_seed` with k = 0 and l > 0 puts ones in the second row, and with l >= k uses negative slice
  bounds.
* `gauss_elim.elim` merges duplicate equations with different right-hand sides (C13).
* The first question of a search need not satisfy the program's own `_invariant_check`; after the
  first pass it always does (C43).
* `utils.eig` raises ValueError for edgeless parameters (C40).
* `maximize` depends on tie-breaking, need not increase the encoding for some tie-breakings (C26), and
  `tests/test_sort.py` fails for a reversed tie-breaking (C49).
* The stored list for (28,12,6,4) is not sorted (C42); several lists contain isomorphic duplicates
  (C46); the lists for (25,12,5,6), (26,10,3,4) and (29,14,6,7) are incomplete (C47).
* `test_solve` compares with `zip` and so ignores a missing tail; the identity test accepts matrices
  with loops; the property test ignores the last vertex (C48, C49).
* From v = 68 on the search misses graphs: (68,66,64,66) gives no strongly regular result although
  the cocktail party graph exists (C51).
* `maximize` can alternate between two matrices for some tie-breakings, and its result for a graph need
  not be among the results of the search (C50).
* `test_determinant` multiplies eigenvalues in int64 and would reject correct solutions once the
  determinant exceeds 64 bits, e.g. for (55,18,9,4) (C52).
* `exp.py` compares matrices that are numberings of the same graph but not equal (C54).
* C02, C08, C13 and C79 have one common cause, the missing check in `_remove_zerokeys`; raising `NoSolution`
  there repairs them all and loses no graph (C62).
* The guard `Q.bounds.size > 0` of the quota check skips it exactly when no unknown is left; without
  the guard the search returns only strongly regular matrices, and loses none (C80).

## Properties

| id | title | status |
|---|---|---|
| C01 | Complete enumeration up to isomorphism | proved |
| C02 | Soundness of finished matrices | partial |
| C03 | Structure of finished matrices | proved |
| C04 | No duplicate solutions | proved |
| C05 | solve terminates without an exception | proved |
| C06 | from_matrix encodes exactly the row conditions | proved |
| C07 | solve_question finds every valid row | proved |
| C08 | solve_question yields only valid rows | partial |
| C09 | solve_question yields each row once | proved |
| C10 | advance never raises | proved |
| C11 | Canonical form is preserved | proved |
| C12 | Elimination loses no solution | proved |
| C13 | Elimination adds no solution | partial |
| C14 | Elimination terminates in a reduced sorted form and is idempotent | proved |
| C15 | Simplification steps raise NoSolution only when there is none | proved |
| C16 | Independence of set iteration order | proved |
| C17 | Forks partition the search | proved |
| C18 | The simplification loop reaches a fixpoint | proved |
| C19 | partition.enum lists exactly the bounded compositions | proved |
| C20 | fork.enum lists exactly the feasible splits | proved |
| C21 | unique.expand inverts unique.reduce | proved |
| C22 | Column codes identify columns | proved |
| C23 | Row codes round-trip | proved |
| C24 | sorter.sort is a canonical sort | proved |
| C25 | maximize returns a relabelling of the same graph | proved |
| C26 | maximize never decreases the encoding | partial |
| C27 | When maximize fails | proved |
| C28 | swap relabels two vertices | proved |
| C29 | complement gives the complementary strongly regular graph | proved |
| C30 | complement is an involution | proved |
| C31 | assert_srg accepts every realisable parameter set | proved |
| C32 | The seed realises its parameters | proved |
| C33 | Problem names round-trip | proved |
| C34 | binarize writes the buckets | proved |
| C35 | Answer bucket widths | proved |
| C36 | lower_upper_bound is the exact pointwise minimum | proved |
| C37 | gauss_elim.sort permutes equations | proved |
| C38 | Command line output | proved |
| C39 | Search state is never shared | proved |
| C40 | Spectrum and determinant | proved |
| C41 | Stored solutions are strongly regular | proved |
| C42 | Stored solutions are distinct and sorted | proved |
| C43 | Internal consistency check never fails | proved |
| C44 | Exactly which matrices the search returns | proved |
| C45 | Stored lists are complete | proved |
| C46 | Number of graphs behind each stored list | proved |
| C47 | Three stored lists are incomplete | proved |
| C48 | What the matrix identity test and the matrix property test accept | proved |
| C49 | What the solver tests and sorter tests accept | proved |
| C50 | maximize applied twice and to results of the search | proved |
| C51 | Beyond the size limit | proved |
| C52 | What test_determinant accepts | proved |
| C53 | Pictures of the stored graphs | proved |
| C54 | The experiment script and compose | proved |
| C55 | Time and memory of solve_question | proved |
| C56 | How far a result can be off | proved |
| C57 | Heap discipline of the elimination | proved |
| C58 | Parameters of complete multipartite graphs and of disjoint complete graphs | proved |
| C59 | The number format of the arrays does not matter | proved |
| C60 | The command line shows whole answers only up to 31 points | proved |
| C61 | Disjoint complete graphs are enumerated exactly | proved |
| C62 | One missing check accounts for every wrong result | proved |
| C63 | The parameter u given to the seed is not used | proved |
| C64 | How often a graph is found | proved |
| C65 | solve yields nothing before the search is finished | proved |
| C66 | The database command | proved |
| C67 | The search can be split and resumed | proved |
| C68 | A printed question can be read back | proved |
| C69 | A continuation is determined by counts | proved |
| C70 | Worked examples in the source | proved |
| C71 | Searching for the complementary parameters finds the complements | proved |
| C72 | Rounding in eig and determinant | proved |
| C73 | What the debugging decorator prints | proved |
| C74 | The order in which the results come | proved |
| C75 | Degrees up to five, sizes up to fourteen | proved |
| C76 | Classical families are found | proved |
| C77 | Parameters for which the search comes out empty | proved |
| C78 | Which pairs of vertices of a result are right | proved |
| C79 | Steps that have a right continuation | partial |
| C80 | The guard on the quota check | proved |
| C81 | Running with assertions switched off | proved |
| C82 | The problems listed without solutions | proved |
| C83 | Which parts of the program can be started | proved |
| C84 | Results with a single vertex of too small degree | proved |
| C85 | Which parameters have a right answer | proved |
