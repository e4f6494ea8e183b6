{"id": "C01", "title": "Complete enumeration up to isomorphism", "statement": "For every strongly regular graph G with parameters (v,k,l,u), solver.solve(SRG(_seed(v,k,l,u))) yields at least one adjacency matrix whose graph is isomorphic to G. An empty result therefore means no such graph exists.", "quantifier": "all v<=66 (v>=3), all k>0 with any l,u or k=0 with l=0, and all graphs on v vertices that are strongly regular with these parameters", "why_tests_cant": "the README promises 'complete enumeration'; a test can only compare with a hand-kept database for a few small v, and the test even zips (truncates) the two lists. A lost branch is invisible.", "anchors": ["srg/solver.py:solve", "srg/solver.py:advance", "srg/solver.py:solve_question", "srg/solver.py:_seed"]}
{"id": "C02", "title": "Soundness of finished matrices", "statement": "Every matrix yielded by solve(SRG(_seed(v,k,l,u))) is an adjacency matrix of a strongly regular graph with parameters (v,k,l,u): row sums k, and two distinct rows meet in l (adjacent) or u (non-adjacent) ones.", "quantifier": "all parameter sets accepted by assert_srg and all yielded matrices (false: (22,9,4,3) yields a matrix with row sums below k)", "why_tests_cant": "tests look only at parameter sets in the database; intermediate rows are not all checked by the program (contradictory equations can be discarded), so correctness of the final matrix is a global counting fact", "anchors": ["srg/solver.py:solve", "srg/srg.py:Question.from_matrix", "srg/gauss_elim.py:_remove_zerokeys"]}
{"id": "C03", "title": "Structure of finished matrices", "statement": "Every matrix yielded by solve is v x v, has entries 0/1, is symmetric, begins with the two seed rows, and has no one on the diagonal except possibly at vertex 1; for positive k, and for k = l = 0, the whole diagonal is zero. For k = 0 and negative l it need not be.", "quantifier": "all seeds with 3 <= v <= 66 and any integers k, l, u, and all yielded matrices", "why_tests_cant": "must hold for every branch of an exponentially large search tree", "anchors": ["srg/solver.py:solve", "srg/srg.py:SRG.append_and_return_new"]}
{"id": "C04", "title": "No duplicate solutions", "statement": "solve never yields the same matrix twice, and advance never yields the same extension twice.", "quantifier": "all seeds with 3 <= v <= 66 and all 0/1 partial matrices with 2 to v - 1 rows, all pairs of positions in the output sequence", "why_tests_cant": "depends on every fork in the tree being disjoint", "anchors": ["srg/solver.py:solve", "srg/solver.py:fork_enum"]}
{"id": "C05", "title": "solve terminates without an exception", "statement": "For 3<=v<=66 and any integers k, l, u, iterating solve(SRG(_seed(v,k,l,u))) terminates and raises nothing: no AssertionError, IndexError, StopIteration or RuntimeError escapes, including for parameter sets with no graph.", "quantifier": "all such parameters, whole run", "why_tests_cant": "the loops are while-True fixpoint loops and a stack-driven search guarded by 20 asserts; tests reach few of the states", "anchors": ["srg/solver.py:solve", "srg/solver.py:solve_question", "srg/gauss_elim.py:_decode"]}
{"id": "C06", "title": "from_matrix encodes exactly the row conditions", "statement": "For a 0/1 partial matrix m with R rows, a 0/1 vector x solves the linear system returned by Question.from_matrix(m) iff the row (column R of m, 0, x) has sum k and meets every earlier row in l or u ones as required; if from_matrix raises NoSolution then no such x exists.", "quantifier": "all 0/1 matrices m with 2<=R<C<=127 whose u (as computed by vklu) lies in 0..127, all x", "why_tests_cant": "an equivalence over all matrices and all vectors; the arithmetic is int8", "anchors": ["srg/srg.py:Question.from_matrix", "srg/srg.py:vklu"]}
{"id": "C07", "title": "solve_question finds every valid row", "statement": "For a 0/1 partial matrix whose equal columns are adjacent, every 0/1 row completion that satisfies the system and is left-justified (within a run of equal columns the ones come first) is yielded by solve_question(from_matrix(m)).", "quantifier": "all such m (at most 66 columns) and all valid left-justified rows", "why_tests_cant": "completeness of a search with pruning; a missing row is unobservable", "anchors": ["srg/solver.py:solve_question", "srg/srg.py:Answer.binarize"]}
{"id": "C08", "title": "solve_question yields only valid rows", "statement": "Every row yielded by solve_question(from_matrix(m)) satisfies the system of m.", "quantifier": "all 0/1 partial matrices m with 2 to v - 1 rows, v <= 66, whose equal columns are adjacent, and all yielded rows (false: the seed of (5,3,1,3) yields a row that misses the equations)", "why_tests_cant": "contradictory equations 0=c are dropped silently by the elimination, so the violating inputs must be found among all inputs. (False of the code: refuted with a reachable witness; what does hold is that no equation is ever overshot.)", "anchors": ["srg/solver.py:solve_question", "srg/gauss_elim.py:_remove_zerokeys", "srg/gauss_elim.py:_gauss_elim"]}
{"id": "C09", "title": "solve_question yields each row once", "statement": "The rows yielded by solve_question(from_matrix(m)) are pairwise different.", "quantifier": "all 0/1 partial matrices m with 2 to v - 1 rows, v <= 66", "why_tests_cant": "depends on disjointness of all forks and on binarize being injective", "anchors": ["srg/solver.py:solve_question", "srg/solver.py:fork_enum", "srg/srg.py:Answer.binarize"]}
{"id": "C10", "title": "advance never raises", "statement": "For every 0/1 partial matrix with 2<=R<C<=66, advance terminates and raises nothing, even if equal columns are not adjacent, the matrix is not symmetric or no completion exists. A finished matrix gives AssertionError, a single row or more rows than columns IndexError.", "quantifier": "all 0/1 matrices with at least one row and at most 66 columns", "why_tests_cant": "about twenty asserts guard internal states; only an invariant can show none can fire (e.g. that the remaining quota of a fork is never negative)", "anchors": ["srg/solver.py:advance", "srg/solver.py:fork_enum", "srg/srg.py:Question.quota"]}
{"id": "C11", "title": "Canonical form is preserved", "statement": "If equal columns of the unfinished part of m are adjacent, the same holds for every matrix returned by advance(m), and every appended row is left-justified within each run of equal columns.", "quantifier": "all 0/1 partial matrices and all extensions; hence all matrices reachable from a seed", "why_tests_cant": "it is the unchecked precondition under which bucket widths equal the number of merged columns", "anchors": ["srg/solver.py:reduce_col", "srg/srg.py:Answer.quota", "srg/srg.py:Answer.binarize"]}
{"id": "C12", "title": "Elimination loses no solution", "statement": "Every x with A x = b also satisfies Ae x = be for (Ae, be) = gauss_elim.elim(A, b).", "quantifier": "all 0/1 matrices A (1..63 columns, first column nonzero), all b in 0..127 and all integer vectors x", "why_tests_cant": "universal over systems and vectors", "anchors": ["srg/gauss_elim.py:elim"]}
{"id": "C13", "title": "Elimination adds no solution", "statement": "Every x with Ae x = be satisfies A x = b.", "quantifier": "all 0/1 systems (false: an equation that becomes 0 = c with nonzero c is dropped)", "why_tests_cant": "True only for consistent systems; for inconsistent ones the code drops the contradiction. Both facts need all systems.", "anchors": ["srg/gauss_elim.py:elim", "srg/gauss_elim.py:_remove_zerokeys"]}
{"id": "C14", "title": "Elimination terminates in a reduced sorted form and is idempotent", "statement": "elim always terminates; its rows are nonzero, sorted by their binary value, no row contains an earlier row whose right-hand side is not larger, right-hand sides stay nonnegative, and elim(elim(A,b)) = elim(A,b).", "quantifier": "all 0/1 matrices with 1..63 columns and nonzero first column, all b in 0..127", "why_tests_cant": "the loop restarts after every simplification; termination needs a measure", "anchors": ["srg/gauss_elim.py:_elim", "srg/gauss_elim.py:_gauss_elim"]}
{"id": "C15", "title": "Simplification steps raise NoSolution only when there is none", "statement": "reduce_col, eliminate, zero_in_b and only_1_element_in_row keep every admissible assignment of a question; when one of them raises NoSolution the question has no admissible assignment.", "quantifier": "all questions reachable inside solve_question, all assignments", "why_tests_cant": "pruning errors lose solutions silently", "anchors": ["srg/solver.py:reduce_col", "srg/solver.py:eliminate", "srg/solver.py:zero_in_b", "srg/solver.py:only_1_element_in_row", "srg/solver.py:raiseExceptionIfNotSolvableAfterwards"]}
{"id": "C16", "title": "Independence of set iteration order", "statement": "The effect of only_1_element_in_row does not depend on the order in which the Python set returned by one_element_row_locs is iterated.", "quantifier": "all questions and all permutations of the set's elements", "why_tests_cant": "a run shows one iteration order only", "anchors": ["srg/solver.py:only_1_element_in_row", "srg/bounds.py:one_element_row_locs"]}
{"id": "C17", "title": "Forks partition the search", "statement": "fork_enum assigns one unknown, the first one with the least bound, different values in different children; every admissible assignment of the parent is an admissible assignment of exactly one child, and every child's assignment belongs to the parent.", "quantifier": "all reachable questions with an unknown, all assignments", "why_tests_cant": "exactly-one over all assignments", "anchors": ["srg/solver.py:fork_enum", "srg/fork.py:enum"]}
{"id": "C18", "title": "The simplification loop reaches a fixpoint", "statement": "The inner while-True loop of solve_question stops after at most C+2 passes (C = number of unknowns) or raises NoSolution; the state it stops in is unchanged by another pass.", "quantifier": "all reachable questions", "why_tests_cant": "non-termination of a while True loop cannot be tested", "anchors": ["srg/solver.py:solve_question"]}
{"id": "C19", "title": "partition.enum lists exactly the bounded compositions", "statement": "partition.enum(s, bounds) yields exactly the tuples t with 0<=t_i<=bounds_i and sum s, each once, in increasing lexicographic order; it asserts when s<0 or bounds is empty.", "quantifier": "all integers s, all bound lists of any length (negative bounds included)", "why_tests_cant": "unbounded recursion depth and unbounded values", "anchors": ["srg/partition.py:enum"]}
{"id": "C20", "title": "fork.enum lists exactly the feasible splits", "statement": "fork.enum(quota, bounds, loc) yields (q, quota-q) for exactly those q, in increasing order, with 0<=q<=bounds[loc] and quota-q not larger than the sum of the other bounds.", "quantifier": "all quotas, bound vectors and positions", "why_tests_cant": "universal over integers", "anchors": ["srg/fork.py:enum"]}
{"id": "C21", "title": "unique.expand inverts unique.reduce", "statement": "expand(*reduce(A)[:2]) == A, the returned locations are increasing, the multiplicities are positive and sum to the number of columns. For any bounds expand repeats the entries of every row; without bounds, and at the first negative bound, it raises ValueError, and at the first bound without a column IndexError.", "quantifier": "all 0/1 matrices with 1..64 rows and at least one column; for expand all matrices and all bounds", "why_tests_cant": "round trip over all matrices", "anchors": ["srg/unique.py:reduce", "srg/unique.py:expand"]}
{"id": "C22", "title": "Column codes identify columns", "statement": "Two columns of a 0/1 matrix receive the same code from unique._encode iff they are equal.", "quantifier": "all 0/1 matrices with at most 64 rows (false from 65 rows on, where int64 overflows)", "why_tests_cant": "the failure needs matrices far larger than any test", "anchors": ["srg/unique.py:_encode"]}
{"id": "C23", "title": "Row codes round-trip", "statement": "gauss_elim._decode(gauss_elim._encode(A,b)) == (A,b) for 0/1 matrices with no zero row and nonzero first column.", "quantifier": "all such matrices with 1..63 columns, b in -128..127 (false at 64 columns)", "why_tests_cant": "round trip over all matrices; boundary at the int64 sign bit", "anchors": ["srg/gauss_elim.py:_encode", "srg/gauss_elim.py:_decode", "srg/gauss_elim.py:_dec2bin"]}
{"id": "C24", "title": "sorter.sort is a canonical sort", "statement": "sort(lst) is a rearrangement of lst in nondecreasing order of the upper-triangle encoding; for symmetric zero-diagonal matrices of one size the comparison is a total order, so the result does not depend on the order of the input. A list of at most one matrix comes back as it is, and two or more matrices of which one is without rows give ValueError.", "quantifier": "all lists of v x v matrices, v>=1", "why_tests_cant": "order independence quantifies over permutations", "anchors": ["srg/sorter.py:sort", "srg/sorter.py:_cmp_srg_matrix", "srg/sorter.py:_encode"]}
{"id": "C25", "title": "maximize returns a relabelling of the same graph", "statement": "maximize(A) is P A P^T for a permutation P; it is symmetric, has the same trace, and is strongly regular with the same parameters if A is.", "quantifier": "all square matrices for which maximize returns, for any tie-breaking of argsort", "why_tests_cant": "all matrices and all tie-breaking orders", "anchors": ["srg/sorter.py:maximize", "srg/sorter.py:AdjMat._sort"]}
{"id": "C26", "title": "maximize never decreases the encoding", "statement": "The upper-triangle encoding of maximize(A) is lexicographically greater than or equal to that of A, and row 0 of the result has its ones before its zeros (after the diagonal).", "quantifier": "all symmetric 0/1 matrices for which maximize returns, for any tie-breaking of argsort (false for some tie-breaking)", "why_tests_cant": "monotonicity over all matrices", "anchors": ["srg/sorter.py:maximize", "srg/sorter.py:AdjMat._div_sort"]}
{"id": "C27", "title": "When maximize fails", "statement": "maximize terminates on every square 0/1 matrix; it raises AssertionError exactly on non-symmetric matrices and, on symmetric ones, TypeError exactly when row 0 has no zero right of the diagonal (complete graphs included).", "quantifier": "all square 0/1 matrices", "why_tests_cant": "the queue-driven loop must stop for all inputs; the failing inputs are a whole family", "anchors": ["srg/sorter.py:AdjMat.sort", "srg/sorter.py:AdjMat._div_sort", "srg/sorter.py:AdjMat._sort"]}
{"id": "C28", "title": "swap relabels two vertices", "statement": "swap(M,i,j) exchanges vertices i and j, is its own inverse, preserves symmetry, zero diagonal and strong regularity; swap_and_verify succeeds exactly on symmetric trace-0 matrices. A negative index counts from the end; an index outside -v..v-1 is an IndexError in both.", "quantifier": "all square matrices, all integers i,j", "why_tests_cant": "universal over matrices", "anchors": ["srg/sorter.py:swap", "srg/sorter.py:swap_and_verify"]}
{"id": "C29", "title": "complement gives the complementary strongly regular graph", "statement": "If M is strongly regular with parameters (v,k,l,u) then complement(M) is strongly regular with parameters complement_vklu(v,k,l,u). On an array of any shape complement raises ValueError unless the array is square, a row or a column; the entries of the result are given in each case.", "quantifier": "all v,k,l,u and all such matrices; the last claim for all rectangular arrays with any entries", "why_tests_cant": "tests check database entries only", "anchors": ["srg/utils.py:complement", "srg/utils.py:complement_vklu"]}
{"id": "C30", "title": "complement is an involution", "statement": "complement(complement(M)) == M for 0/1 matrices with zero diagonal and complement_vklu(*complement_vklu(v,k,l,u)) == (v,k,l,u).", "quantifier": "all such matrices and all integers", "why_tests_cant": "universal", "anchors": ["srg/utils.py:complement", "srg/utils.py:_invert", "srg/utils.py:complement_vklu"]}
{"id": "C31", "title": "assert_srg accepts every realisable parameter set", "statement": "If a strongly regular graph with parameters (v,k,l,u) exists then assert_srg(v,k,l,u) does not raise; and it accepts (v,k,l,u) iff it accepts the complementary parameters.", "quantifier": "all graphs and parameters", "why_tests_cant": "a rejected realisable parameter set is a lost solution; universal over graphs", "anchors": ["srg/utils.py:assert_srg"]}
{"id": "C32", "title": "The seed realises its parameters", "statement": "For l<k, 2k-l<=v (forced whenever a graph exists), v>k+1 and (v-k-1)u = k(k-l-1): both rows of _seed(v,k,l,u) are 0/1 with sum k, meet in l ones, are symmetric with zero diagonal, and vklu(_seed(v,k,l,u)) == (v,k,l,u). For any integers k, l, u the ones of the two rows are exactly those of the slices 1:k+1, 2:l+2 and k+1:2k-l, with negative bounds counted from the end, and s[1,0] = s[0,1].", "quantifier": "all such parameters with l<=127; for the slices all v>=2 and all integers k, l, u", "why_tests_cant": "universal over parameters; slices clamp silently", "anchors": ["srg/solver.py:_seed", "srg/srg.py:vklu"]}
{"id": "C33", "title": "Problem names round-trip", "statement": "extract_vklu('problem_v_k_l_u') == [v,k,l,u] for the module name get_solutions builds from v,k,l,u; different parameters have different module names; get_solutions returns exactly the value stored in the module of that name. For an arbitrary name extract_vklu returns exactly the integers written between the underscores behind the first one, and ValueError if one of the parts is not an integer.", "quantifier": "all integers v,k,l,u (signs included); all names", "why_tests_cant": "universal over integers and their decimal forms", "anchors": ["srg/database/__init__.py:extract_vklu", "srg/database/__init__.py:get_solutions"]}
{"id": "C34", "title": "binarize writes the buckets", "statement": "For a fully known Answer, binarize returns a 0/1 vector of length len whose i-th bucket starts with value[i] ones followed by zeros; it is injective in the values.", "quantifier": "all answers with increasing locations and values within bucket widths", "why_tests_cant": "universal over bucket layouts", "anchors": ["srg/srg.py:Answer.binarize", "srg/srg.py:Answer.quota"]}
{"id": "C35", "title": "Answer bucket widths", "statement": "Bucket widths of every Answer with at least one bucket sum to its length (without buckets and with positive length, quota raises AssertionError); for answers inside solve_question they are all positive. The constructor's 'sorted' assertion only checks that consecutive locations differ, so it accepts decreasing locations, which have a negative width.", "quantifier": "all Answer objects", "why_tests_cant": "the assert's message and its condition differ on inputs no test uses", "anchors": ["srg/srg.py:Answer.__init__", "srg/srg.py:Answer.quota"]}
{"id": "C36", "title": "lower_upper_bound is the exact pointwise minimum", "statement": "After lower_upper_bound(A,b,bounds) each bound is the minimum of the old bound and all b[r] with A[r,c]!=0; the result does not depend on the row order, is idempotent, and no nonnegative x with A x = b and x <= old bounds is excluded.", "quantifier": "all 0/1 matrices, all b and bounds", "why_tests_cant": "universal", "anchors": ["srg/bounds.py:lower_upper_bound"]}
{"id": "C37", "title": "gauss_elim.sort permutes equations", "statement": "sort(A,b) reorders the rows of (A,b) jointly so that b is ascending; the solution set is unchanged.", "quantifier": "all A, b; any tie-breaking of argsort", "why_tests_cant": "universal", "anchors": ["srg/gauss_elim.py:sort"]}
{"id": "C38", "title": "Command line output", "statement": "python -m srg with arguments other than four integers raises ValueError; the integers are exactly the decimal literals with optional sign, single underscores between digits and surrounding white space; with parameters failing (v-k-1)u == k(k-l-1) it raises AssertionError before searching; otherwise it prints exactly the matrices solve yields, without repetition, in strictly increasing order of their encoding. Parameters with v < 3 never produce output: two points give AssertionError (although a single edge is strongly regular and its parameters are accepted), one or none IndexError, negative v ValueError. Accepted parameters may still be meaningless: with negative l the command prints matrices that do not have the parameters asked for.", "quantifier": "all argument strings; all integers k,l,u and v<=66", "why_tests_cant": "end-to-end over all parameters", "anchors": ["srg/__main__.py", "srg/sorter.py:sort", "srg/utils.py:assert_srg"]}
{"id": "C39", "title": "Search state is never shared", "statement": "The snapshot Q.copy() taken before each simplification pass is not changed by the pass, and the children produced by fork_enum share no array with the parent or with each other, although passes write arrays in place.", "quantifier": "all reachable questions and all later in-place writes", "why_tests_cant": "aliasing bugs show only in particular histories", "anchors": ["srg/srg.py:Question.copy", "srg/srg.py:Answer.copy", "srg/solver.py:fork_enum", "srg/solver.py:zero_in_b", "srg/solver.py:only_1_element_in_row"]}
{"id": "C40", "title": "Spectrum and determinant", "statement": "For the parameters of every strongly regular graph with 0 < k < v-1, eig returns exactly the eigenvalues of the adjacency matrix with their multiplicities (the factorisation of the characteristic polynomial), the non-conference eigenvalues being integers, and determinant returns the determinant of every such adjacency matrix. For any integers: eig ends with ValueError if the number under the root is negative, or zero with conference zero, with ZeroDivisionError if it is zero with conference not zero, and has a result otherwise, namely the roots with multiplicity half of v - 1 if conference is zero, and the same formulas with all digits behind the point dropped if it is not; then determinant fails exactly if zero occurs with a negative multiplicity, and otherwise returns the integer next to the product of the powers, the even one if there are two.", "quantifier": "all such parameter sets and matrices, conference graphs included (exact arithmetic; for rounding see C72); the last claim for all integers v, k, l, u", "why_tests_cant": "universal over parameters and graphs; a test compares a few determinants numerically", "anchors": ["srg/utils.py:eig", "srg/utils.py:determinant", "srg/utils.py:conference"]}
{"id": "C41", "title": "Stored solutions are strongly regular", "statement": "Whenever get_solutions(v,k,l,u) returns, every matrix in the result is the adjacency matrix of a strongly regular graph with parameters (v,k,l,u); it returns exactly for the modules that list_problems lists.", "quantifier": "all integers v,k,l,u, over the stored modules", "why_tests_cant": "the tests check one matrix identity on the stored data; the claim covers every request and the definition of strong regularity", "anchors": ["srg/database/__init__.py:get_solutions", "srg/database/__init__.py:list_problems", "srg/database/problem_28_12_6_4.py"]}
{"id": "C42", "title": "Stored solutions are distinct and sorted", "statement": "No stored list has repetitions; every list except that of (28,12,6,4) is strictly increasing in the order of sorter.sort, and that of (28,12,6,4) is not.", "quantifier": "all requests", "why_tests_cant": "the comparison test pairs the sorted search output with the stored list position by position, so it silently relies on the order", "anchors": ["srg/database/problem_28_12_6_4.py", "srg/sorter.py:sort"]}
{"id": "C43", "title": "Internal consistency check never fails", "statement": "Comparing two answers or two questions with == says exactly whether their contents agree; the check _invariant_check of a question holds after every completed step of the search; and decorating the steps with debug, which runs that check and prints, changes no result.", "quantifier": "all questions reachable in the search, all v up to 66", "why_tests_cant": "the check is only executed on the questions a test happens to visit, and only when the decorator is switched on by hand", "anchors": ["srg/srg.py:Question._invariant_check", "srg/srg.py:Question.__eq__", "srg/utils.py:debug"]}
{"id": "C44", "title": "Exactly which matrices the search returns", "statement": "A strongly regular matrix is returned by the search for its parameters if and only if each of its rows is justified to the left inside the classes of columns that agree above it; and for feasible parameters the results whose rows all have k ones are exactly the justified strongly regular matrices.", "quantifier": "all feasible v,k,l,u with 3 <= v <= 66, all matrices", "why_tests_cant": "tests compare the output with stored lists produced by the same program, so a result missed or added by both goes unnoticed", "anchors": ["srg/solver.py:solve", "srg/solver.py:advance", "srg/solver.py:_seed"]}
{"id": "C45", "title": "Stored lists are complete", "statement": "For every module of the database except those of (25,12,5,6), (26,10,3,4) and (29,14,6,7), the stored list contains every strongly regular graph with these parameters up to isomorphism, and its matrices are exactly the results of the search whose rows all have k ones; stored matrices are always found again by the search; for nine parameter sets the command line program prints exactly the stored list.", "quantifier": "all modules of the database, all graphs on any vertex type", "why_tests_cant": "the stored lists are the oracle of the tests; nothing checks that the oracle itself is complete", "anchors": ["srg/database/__init__.py:get_solutions", "tests/test_solver.py", "srg/__main__.py"]}
{"id": "C46", "title": "Number of graphs behind each stored list", "statement": "Up to isomorphism the stored parameters outside the three incomplete lists have exactly one graph each, except (16,6,2,2) and (16,9,4,6) with two, (28,12,6,4) with four and (21,10,4,5) with none; stored lists may contain several relabellings of one graph.", "quantifier": "all graphs on any vertex type with the stored parameters", "why_tests_cant": "it is a statement about all graphs; the tests never compare matrices up to isomorphism", "anchors": ["srg/database/__init__.py:get_solutions", "srg/database/problem_28_12_6_4.py", "srg/database/problem_21_10_4_5.py"]}
{"id": "C47", "title": "Three stored lists are incomplete", "statement": "The lists stored for (25,12,5,6), (26,10,3,4) and (29,14,6,7) each leave out a strongly regular graph with these parameters, and the search returns a strongly regular matrix that is not a relabelling of any stored one; so a stored list is complete exactly when it is not one of the three.", "quantifier": "all modules of the database", "why_tests_cant": "the search for these parameters does not finish in test time, so the stored lists are never compared with it", "anchors": ["srg/database/problem_25_12_5_6.py", "srg/database/problem_26_10_3_4.py", "srg/database/problem_29_14_6_7.py"]}
{"id": "C48", "title": "What the matrix identity test and the matrix property test accept", "statement": "On 0/1 lists with zero diagonal, test_srg_matrix_identity passes exactly when every matrix is strongly regular with the given feasible parameters (symmetry and row sums follow); test_matrix_property checks exactly the common neighbour counts of pairs not involving the last vertex, so it accepts every solution and also matrices that are not strongly regular; the identity test ignores loops.", "quantifier": "all lists of square 0/1 matrices and all feasible parameters with v <= 127", "why_tests_cant": "it is a statement about the tests themselves", "anchors": ["tests/test_database.py:test_srg_matrix_identity", "tests/test_database.py:test_matrix_property"]}
{"id": "C49", "title": "What the solver tests and sorter tests accept", "statement": "test_solve passes exactly when the sorted results and the stored list agree as far as both go, so a search that returns nothing and an empty stored list always pass; it passes for nine stored parameter sets with v < 20. test_solve_question passes whenever the list contains a result of the search, hence on every nonempty stored list, and never on an empty list. The sorter tests pass for a stable argsort, and the second one fails for some other valid argsort.", "quantifier": "all parameters with 3 <= v <= 66 and all lists of v x v matrices", "why_tests_cant": "it is a statement about the tests themselves", "anchors": ["tests/test_solver.py:test_solve", "tests/test_solver.py:test_solve_question", "tests/test_sort.py"]}
{"id": "C50", "title": "maximize applied twice and to results of the search", "statement": "When argsort leaves sorted input alone (as every stable sort does), maximize(maximize(A)) = maximize(A), and maximize leaves every matrix returned by the search and every stored solution as it is. With other valid tie-breaking maximize can alternate between two matrices for ever. What maximize returns for a strongly regular graph need not be a matrix the search returns.", "quantifier": "all argsort functions with the stated contract, all square 0/1 matrices on which maximize returns; all search parameters with 3 <= v <= 66, 0 <= l < k or k = l = 0, k < v - 1", "why_tests_cant": "the two sorter tests apply maximize once to one matrix each", "anchors": ["srg/sorter.py:maximize", "srg/sorter.py:AdjMat", "srg/solver.py:solve", "srg/database"]}
{"id": "C51", "title": "Beyond the size limit", "statement": "The size limits of the earlier properties are real. For v = 67 a single step can miss a row that solves the equations and can return a row that meets an earlier row too often; for v = 71 a step can raise. The parameters (68,66,64,66) are accepted and belong to a strongly regular graph, but no result of the search is strongly regular. At v = 132 the parameters read off the first two rows are wrong.", "quantifier": "existence of the named witnesses; for (68,66,64,66): every result of the search; the cocktail party graph for every n", "why_tests_cant": "the tests stop at v = 29, and a complete search at v = 68 is out of reach for them", "anchors": ["srg/unique.py:_encode", "srg/gauss_elim.py:_encode", "srg/solver.py:advance", "srg/srg.py:Question.from_matrix"]}
{"id": "C52", "title": "What test_determinant accepts", "statement": "On a list of strongly regular matrices that are neither edgeless nor complete, test_determinant passes exactly if the list is empty, the parameters are those of a conference graph, or the determinant fits into 64 bits. It passes for every stored list with a solution. For (55,18,9,4) it rejects every correct solution, for instance the triangular graph.", "quantifier": "all parameters and all lists of strongly regular matrices; all functions returning exact eigenvalues in any order", "why_tests_cant": "it is a statement about the test itself, including parameters that are not stored", "anchors": ["tests/test_database.py:test_determinant", "srg/utils.py:determinant", "srg/database"]}
{"id": "C53", "title": "Pictures of the stored graphs", "statement": "draw(v,k,l,u) makes one picture for each stored solution. File names of different pictures differ, also between different parameters. Each picture has the labelled nodes 0..v-1 and shows exactly the pairs r < c with entry 1, each once, and the graph shown is strongly regular with the given parameters. For parameters that are not stored the import fails.", "quantifier": "all integer parameters and indices (names); all strongly regular matrices (graph); all stored lists", "why_tests_cant": "draw has no test, and its output is an image", "anchors": ["srg/database/__init__.py:draw", "srg/database/__init__.py:get_solutions"]}
{"id": "C54", "title": "The experiment script and compose", "statement": "The matrices computed by exp.py from the two stored solutions of (10,6,3,4) are numberings of the graph stored for (10,3,0,1), for every tie-breaking of argsort; with a stable argsort the two are equal to each other and different from the stored matrix, so both comparisons of the script are false. compose(f1,...,fn) applies the functions from the last to the first, and raises TypeError without functions.", "quantifier": "all argsort functions that sort; all lists of functions", "why_tests_cant": "exp.py discards its results and has no test; tie-breaking depends on the numpy version", "anchors": ["exp.py", "srg/sorter.py:maximize", "srg/utils.py:complement", "srg/pprint.py:compose"]}
{"id": "C55", "title": "Time and memory of solve_question", "statement": "When R rows of a partial matrix with v columns are known, the stack of solve_question never holds more than v-R questions, and its outer loop runs fewer than 2^(v-R) times.", "quantifier": "all partial matrices with at least two rows and at most 66 columns, all stacks that occur", "why_tests_cant": "no test measures the search, and only a few parameters are run", "anchors": ["srg/solver.py:solve_question", "srg/solver.py:fork_enum"]}
{"id": "C56", "title": "How far a result can be off", "statement": "In every matrix returned by the search for feasible parameters, each vertex has at least u and at most k neighbours, and the neighbours of the last vertex have exactly k. The missing common neighbours and the missing neighbours satisfy an exact balance. If a single vertex has too few neighbours, at most l+1-u are missing; if l < u a wrong result has two vertices of too small degree that also have too few common neighbours. The first two vertices have exactly k neighbours. For u = k and for u = k - 1 every result is strongly regular; for u = k - 1 >= 2 there is none.", "quantifier": "all feasible parameters with v <= 66 and all results", "why_tests_cant": "the results in question are wrong outputs for parameters that no test uses", "anchors": ["srg/solver.py:solve", "srg/gauss_elim.py:_remove_zerokeys"]}
{"id": "C57", "title": "Heap discipline of the elimination", "statement": "Run on any heapq whose heappop and merge keep the promises of their documentation, _elim returns what the model returns: every list popped from satisfies the heap condition and every list merged is sorted. CPython's heappop (sifting in an array), heapify and merge keep these promises.", "quantifier": "all lists of (key, index, value) tuples and all conforming heapq libraries", "why_tests_cant": "after the first pop the list is a heap but not sorted, and only particular key patterns would show a wrong order", "anchors": ["srg/gauss_elim.py:_gauss_elim", "srg/gauss_elim.py:_elim"]}
{"id": "C58", "title": "Parameters of complete multipartite graphs and of disjoint complete graphs", "statement": "For u = k the search returns exactly one matrix if v - k divides v and none otherwise. For u = 0 a strongly regular matrix is among the results exactly when k + 1 divides v, and then there is only one.", "quantifier": "all feasible parameters with v <= 66 and u = k or u = 0", "why_tests_cant": "the tests look at one such parameter set (12,6,0,6); that no other numbering of the same graph is returned needs an argument about all numberings", "anchors": ["srg/solver.py:solve", "srg/solver.py:advance", "srg/database/problem_12_6_0_6.py"]}
{"id": "C59", "title": "The number format of the arrays does not matter", "statement": "Let every place where the search stores a computed number use its own rounding function. If each of them leaves numbers between -128 and 127 alone, the search returns the same list as with int8 arrays. So no stored number overflows an int8, and the result does not depend on numpy's promotion rules.", "quantifier": "all feasible parameters with v <= 66, all 0/1 start matrices with representable u, and all rounding functions that are the identity on the int8 range", "why_tests_cant": "an overflow somewhere in the search tree is silent in numpy, and a test run uses one numpy version with one set of promotion rules", "anchors": ["srg/srg.py:from_matrix", "srg/srg.py:vklu", "srg/gauss_elim.py:_decode", "srg/solver.py:reduce_col", "srg/solver.py:only_1_element_in_row", "srg/solver.py:fork_enum"]}
{"id": "C60", "title": "The command line shows whole answers only up to 31 points", "statement": "A run with at most 31 points prints the parameters, the banner and one text per answer; every answer can be read back from its text, in order. From 32 points on numpy shortens the text to 36 entries: it depends only on the first and last three entries of the first and last three rows, and two different strongly regular matrices can be printed alike.", "quantifier": "all argument lists that denote four integers with 3 <= v <= 31 (resp. all 0/1 matrices with v >= 32), and all texts numpy puts behind the list", "why_tests_cant": "no test runs the command line, and the database has no parameters with 32 or more points, where the loss starts", "anchors": ["srg/__main__.py", "srg/pprint.py:green"]}
{"id": "C61", "title": "Disjoint complete graphs are enumerated exactly", "statement": "For parameters with u = 0 every result is strongly regular, and there is exactly one if k + 1 divides v and none otherwise. More generally a step whose unfinished columns all agree yields at most one row, and a step that cannot reach the degree of row 0 yields none.", "quantifier": "all parameters with u = 0 that satisfy the counting condition, v <= 66 (resp. all 0/1 matrices with at least two rows)", "why_tests_cant": "u = 0 does not occur in the tests or the database; wrong results do occur for other parameters (C02), so their absence needs a proof", "anchors": ["srg/solver.py:advance", "srg/solver.py:solve", "srg/solver.py:solve_question"]}
{"id": "C62", "title": "One missing check accounts for every wrong result", "statement": "Change one thing in the program: let _remove_zerokeys raise NoSolution when it drops an equation 0 = v with v nonzero. Then elimination either reports that there is no solution, and there is none, or returns a system with exactly the same solutions; the rows tried are exactly those old rows that solve their equations; and the search returns, each once and in the old order, exactly the strongly regular matrices among the old results, which are the strongly regular matrices justified to the left.", "quantifier": "all 0/1 systems with at most 63 unknowns, all adjacent 0/1 partial matrices, all parameters that satisfy the counting condition, v <= 66", "why_tests_cant": "the cause of the wrong results (C02, C08, C13) cannot be isolated by running examples, and that a fix loses no graph is a statement about all parameters", "anchors": ["srg/gauss_elim.py:_remove_zerokeys", "srg/gauss_elim.py:elim", "srg/solver.py:eliminate", "srg/solver.py:solve_question", "srg/solver.py:solve"]}
{"id": "C63", "title": "The parameter u given to the seed is not used", "statement": "_seed(v,k,l,u) ignores u, so solve searches with u read off the seed: k(k-l-1) divided by v-k-1 and rounded down. In every result the neighbours of the last vertex together lack exactly the remainder of that division, so with a remainder no result is regular of degree k; with the check of C62 the search then returns nothing, and otherwise exactly the justified strongly regular matrices for the quotient, whatever u was given.", "quantifier": "all v <= 66, 0 <= l < k, k + 1 < v, 2k - l <= v, all integers u", "why_tests_cant": "every test passes parameters that satisfy the counting condition; calls with another u are not tried", "anchors": ["srg/solver.py:_seed", "srg/srg.py:vklu", "srg/solver.py:solve"]}
{"id": "C64", "title": "How often a graph is found", "statement": "The results of solve that depict a strongly regular graph G are exactly the adjacency matrices of its justified numberings; their number times the number of automorphisms of G is the number of justified numberings, hence at most v!. Every ordered clique of G stands at the first vertices of some result, so G is found at least as often as there are classes of ordered cliques under the automorphisms, and a graph found only once has an automorphism carrying any ordered clique to any other of the same size.", "quantifier": "all strongly regular graphs G with 3 <= v <= 66 vertices and 0 < k or l = 0, all sizes of cliques", "why_tests_cant": "the tests count the solutions of a few parameter sets and never relate the count to the automorphisms of a graph", "anchors": ["srg/solver.py:solve", "srg/solver.py:advance", "srg/srg.py:Question.from_matrix"]}
{"id": "C65", "title": "solve yields nothing before the search is finished", "statement": "Although solve is a generator, its events are first all calls of advance and then all results: one call for each unfinished matrix that steps of advance reach from the start, no matrix twice, in order of the number of rows; then exactly the reachable matrices with v rows. So the first result costs as much as all of them. For every matrix, in or out of range, the yielded matrices are those that the model of solve returns, and the exception, if any, is the same; the last event before it is the call of advance that raised it.", "quantifier": "all 0/1 starting matrices with 2 <= rows < v <= 66 (hence all seeds with v >= 3); the last sentence for all matrices", "why_tests_cant": "the tests turn the generator into a list and cannot see when each result was produced", "anchors": ["srg/solver.py:solve", "srg/solver.py:partition_by_done", "srg/solver.py:advance"]}
{"id": "C66", "title": "The database command", "statement": "python -m srg.database stops with ImportError for all arguments; with the module name repaired but no assert_arg it stops with AttributeError as soon as parameters are given. With assert_srg under the name it uses: unless arguments two to five are four integers the command word is ignored and the hint and the names of all loadable lists are shown; list shows exactly the stored matrices, all strongly regular and distinct; draw saves one picture for each of them; parameters violating the counting condition give AssertionError whatever the command word, parameters without a list ImportError, any other command word a message that quotes it; arguments after the fifth are ignored; no stored list is blocked by the check.", "quantifier": "all lists of command line arguments", "why_tests_cant": "no test starts the command, and as it stands it never gets past its second line", "anchors": ["srg/database/__main__.py", "srg/database/__init__.py:list_problems", "srg/database/__init__.py:get_solutions", "srg/database/__init__.py:draw"]}
{"id": "C67", "title": "The search can be split and resumed", "statement": "Interrupt solve(s) after n rounds of advance and search from each matrix reached: the results together, in order, are those of solve(s). From one of these matrices p, solve(p) returns exactly the results of solve(s) that begin with p; searches from different matrices with equally many rows share no result, and every result is found again from each of its own beginnings. If equal unfinished columns of s are adjacent, a strongly regular matrix with first two vertices joined is a result of solve(s) exactly if it begins with s and its further rows are justified to the left; if they are not adjacent, solve(s) can return nothing although such a matrix exists.", "quantifier": "all 0/1 partial matrices s with 2 <= R < v <= 66, all numbers of rounds before the last", "why_tests_cant": "the tests start from the seed only and run each search as a whole; there are exponentially many partial matrices", "anchors": ["srg/solver.py:solve", "srg/solver.py:advance"]}
{"id": "C68", "title": "A printed question can be read back", "statement": "The numbers in the printed form of a Question (arrays of at most 1000 entries), taken from left to right, are the number of equations, the number of unknowns, each equation with its right hand side first, the number of unknowns and the 1 of its shape, the quota, the bounds, and the answer's values, the 8 of int8, its locations (and the 64 of int64 if there are none) and its length: line wrapping and padding lose nothing. The layout is fixed: every number of an array takes the width W of the longest one, padded on the left; str puts max(1, 74 div (W+1)) numbers on a line and indents the next by one blank, repr puts max(1, 68 div (W+2)) and indents by seven, and the type moves to a line of its own if the numbers on the last line take more than 56 columns. Two questions with the shapes that the constructors accept and at least one equation that print alike are equal. The question of the docstring prints with the quota on the line of x, not on the line of the bounds as the docstring shows.", "quantifier": "all questions", "why_tests_cant": "no test prints a question; wrapping depends on the widths of the numbers, and equality of texts concerns all pairs of questions", "anchors": ["srg/srg.py:Question.__repr__", "srg/srg.py:Answer.__repr__"]}
{"id": "C69", "title": "A continuation is determined by counts", "statement": "If equal unfinished columns of a partial matrix m are adjacent (as in every matrix the search meets), two results of advance(m) whose new rows have equally many ones in each class of equal unfinished columns are the same; hence advance(m) returns at most the product of (class size + 1) over the classes many matrices.", "quantifier": "all 0/1 partial matrices with 2 <= R < v <= 66 and equal unfinished columns adjacent", "why_tests_cant": "the tests compare final results on a few parameter sets; the bound concerns every partial matrix", "anchors": ["srg/solver.py:advance", "srg/srg.py:Answer.binarize", "srg/solver.py:reduce_col"]}
{"id": "C70", "title": "Worked examples in the source", "statement": "The values given in docstrings, comments and self-checks of unique.py, fork.py, bounds.py (including test1, which is never called), partition.py, gauss_elim.py, srg.py and solver.py are what the functions return, and the last text printed by python -m srg.srg is the one computed.", "quantifier": "the inputs written in the source", "why_tests_cant": "the self-checks run only when the modules are started as scripts, one of them is never called, and comments are not run at all", "anchors": ["srg/unique.py", "srg/fork.py", "srg/bounds.py", "srg/partition.py", "srg/gauss_elim.py", "srg/srg.py", "srg/solver.py:reduce_col"]}
{"id": "C71", "title": "Searching for the complementary parameters finds the complements", "statement": "For 3 ≤ v ≤ 66 the complement of every strongly regular matrix of degree k < v-1, as computed by complement, is strongly regular with the parameters of complement_vklu and, up to renumbering, among the results of the search with them. If both degrees are positive, the strongly regular results of the two searches correspond up to renumbering. Two strongly regular matrices are renumberings of each other exactly if their complements are. There are as many strongly regular graphs with the parameters of the complement; so the stored lists also determine the numbers for (4,1,0,0), (12,5,4,0), (21,10,3,6), (25,16,9,12), (27,16,10,8) and (28,15,6,10), for which nothing is stored.", "quantifier": "all strongly regular matrices of size at most 66, all pairs of complementary parameters, all graphs", "why_tests_cant": "no test runs two searches with complementary parameters, and the statement concerns all graphs with the parameters", "anchors": ["srg/utils.py:complement", "srg/utils.py:complement_vklu", "srg/solver.py:solve"]}
{"id": "C72", "title": "Rounding in eig and determinant", "statement": "In any floating-point arithmetic that does not change integers up to 2^53, eig and determinant are exact for all strongly regular graphs with 0 < k < v-1 and v ≤ 2^25 that are not conference graphs, and test_determinant needs the eigenvalues of the matrices only up to 1/2. If also every operation is right up to one part in 2^53 and pow up to one part in 2^52, then for conference graphs the multiplicities are right, the irrational eigenvalues are right up to five parts in 2^53, and for v ≤ 29 determinant is exact and test_determinant passes if the product of the eigenvalues is right up to 1/2. So determinant is exact for all stored parameters. Results have 53 binary digits, so for (37,18,8,9) determinant never returns the determinant of a strongly regular graph with these parameters. For numbers up to 2^53 eig fails exactly when the number under the root is not positive: ValueError if it is negative, ZeroDivisionError if it is zero and conference is not, ValueError if both are. If eig has a result and conference is not zero, determinant fails exactly if zero occurs with a negative multiplicity.", "quantifier": "all floating-point arithmetics with the stated accuracy, all strongly regular matrices", "why_tests_cant": "the test compares two computations with rounding errors on a few stored graphs, on one machine", "anchors": ["srg/utils.py:eig", "srg/utils.py:determinant", "tests/test_database.py:test_determinant"]}
{"id": "C73", "title": "What the debugging decorator prints", "statement": "Printing does not change what the decorated functions do. For every question met while looking for a row, a decorated step that raises prints nothing; one that completes prints one blue line if the question is unchanged, and otherwise the question before, a green line and the question after, and the two printed questions differ. The red message never appears; for a step that did break the consistency check it would follow the usual message, with both questions, before AssertionError. For fork_enum only the blue line appears, because the generator has not run when the questions are compared. The messages are shown with quotation marks.", "quantifier": "all partial matrices of size at most 66 and all questions reached from them", "why_tests_cant": "the decorator is commented out everywhere, so nothing runs it", "anchors": ["srg/utils.py:debug", "srg/pprint.py", "srg/srg.py:Question.__eq__", "srg/srg.py:Question._invariant_check"]}
{"id": "C74", "title": "The order in which the results come", "statement": "Results that share their first R rows are yielded one after another, for every R; after any number of rounds the results come in one block per matrix reached so far, in the order of these matrices. Inside one step the rows tried are in general neither increasing nor decreasing (witness: four rows reached for (17,8,3,4)).", "quantifier": "all 0/1 starting matrices with 2 <= R < v <= 66 rows and columns, all numbers of rows resp. rounds", "why_tests_cant": "the tests compare sorted lists or single results", "anchors": ["srg/solver.py:solve", "srg/solver.py:advance", "srg/sorter.py:sort"]}
{"id": "C75", "title": "Degrees up to five, sizes up to fourteen", "statement": "For feasible parameters of degree at most five every result of the search is strongly regular and there is at most one result. For at most fourteen vertices every result is strongly regular, whatever the degree. So a strongly regular graph of degree at most five with 0 < u < k has parameters (5,2,0,1), (10,3,0,1), (9,4,1,2) or (16,5,0,2), and for u > 0 the parameters determine the graph up to isomorphism.", "quantifier": "all good parameters with k <= 5 or v <= 14; all graphs on any finite vertex set with k <= 5 (no bound on v)", "why_tests_cant": "the tests run a few stored parameters; this covers every parameter set of these degrees and every graph", "anchors": ["srg/solver.py:solve", "srg/solver.py:_seed", "srg/solver.py:solve_question"]}
{"id": "C76", "title": "Classical families are found", "statement": "For graphs with 3 to 66 vertices the search finds the collinearity graph of every partial geometry, hence of every net, every Latin square, every set of slopes in a plane over a finite field and every Steiner system, all lattice and triangular graphs, and all Paley graphs; the command line prints them.", "quantifier": "all partial geometries pg(s,t,alpha) with s >= 1 on at most 66 points, all Latin squares of order at most 8, all finite fields and sets of slopes with q <= 8, all Steiner systems with at most 66 blocks, all n <= 8 resp. n <= 12, all finite fields of order 4n+1 <= 65", "why_tests_cant": "the searches concerned cannot be run to the end, and there are too many geometries to list", "anchors": ["srg/solver.py:solve", "srg/solver.py:_seed", "srg/__main__.py"]}
{"id": "C77", "title": "Parameters for which the search comes out empty", "statement": "Nothing is returned for feasible parameters with u < k and k + l < 2u, with l + 1 < k and k + u < 2l + 3, with k and l both odd, with u = 1 and l + 1 not dividing k, or with v < 2k - u + 2 (and v > k + 1). The command then prints nothing, and no strongly regular graph with these parameters exists.", "quantifier": "all feasible parameters with v <= 66 that satisfy one of the five conditions", "why_tests_cant": "most of these searches cannot be run to the end", "anchors": ["srg/solver.py:solve", "srg/solver.py:_seed", "srg/__main__.py"]}
{"id": "C78", "title": "Which pairs of vertices of a result are right", "statement": "In every matrix returned for feasible parameters, a vertex with k neighbours has the right number of common neighbours with every vertex exactly when all its neighbours have k neighbours; a vertex with k neighbours is right with the last vertex and with all neighbours of the last vertex; a vertex with d neighbours too few misses u d common neighbours with those in total. Where common neighbours are missing, a vertex of too small degree is at distance at most one. The array of what is missing commutes with the adjacency matrix up to the differences of the degrees. If just one vertex has too few neighbours, exactly l + 1 - u are missing, as many common neighbours are missing with each of its neighbours, and nothing else is missing. The neighbourhood of the last vertex satisfies the eigenvalue bound of strongly regular graphs, stated as an inequality for arbitrary integer weights.", "quantifier": "all feasible parameters with v <= 66, all results and all pairs of vertices", "why_tests_cant": "the results in question are wrong outputs for parameters that no test uses", "anchors": ["srg/solver.py:solve", "srg/gauss_elim.py:_remove_zerokeys"]}
{"id": "C79", "title": "Steps that have a right continuation", "statement": "If some 0/1 row may follow a partial matrix whose equal columns are adjacent, then advance finds a row that may follow, and every row it finds may follow.", "quantifier": "all partial 0/1 matrices with 2 to v - 1 rows, v <= 66, whose equal unfinished columns are adjacent and whose u lies between 0 and 127", "why_tests_cant": "a wrong row found next to a right one leads nowhere in the tested searches, so it never shows in the results", "anchors": ["srg/solver.py:advance", "srg/solver.py:solve_question", "srg/gauss_elim.py:_remove_zerokeys"]}
{"id": "C80", "title": "The guard on the quota check", "statement": "Removing the guard Q.bounds.size > 0 from the check after each step removes exactly the results with a row that has not as many ones as the first row, and changes neither the other results nor their order. For admissible parameters the search without the guard returns, each once, exactly the strongly regular matrices whose rows are justified to the left.", "quantifier": "all v from 3 to 66 and all integers k, l, u; for one question, all partial 0/1 matrices with 2 to v - 1 rows", "why_tests_cant": "the statement compares two programs on all inputs, and the only parameters known to give wrong results are too large for the test suite", "anchors": ["srg/solver.py:raiseExceptionIfNotSolvableAfterwards", "srg/solver.py:solve_question", "srg/solver.py:solve"]}
{"id": "C81", "title": "Running with assertions switched off", "statement": "Leaving out every assertion (python -O) changes the outcome of the search, of one step, of one question, of partition.enum, maximize, swap_and_verify and the command line only on inputs for which an assertion fails. From the seed the search never depends on them. An assertion of partition.enum fails exactly for a negative sum or no bounds; without it, no bounds give ValueError, a negative sum with one bound yields the sum itself if the bound allows it, and with more bounds nothing. The command line depends on them too: without assertions it no longer refuses parameters that fail the counting condition, ignores the argument u, and prints only wrong matrices for them.", "quantifier": "all inputs of the functions; for the search, v from 3 to 66 and all integers k, l, u; for the command line all argument lists", "why_tests_cant": "the tests are made of assertions themselves, so running them with -O checks nothing", "anchors": ["srg/utils.py:assert_srg", "srg/__main__.py", "srg/solver.py:solve", "srg/srg.py:Question", "srg/sorter.py:swap_and_verify", "srg/partition.py:enum"]}
{"id": "C82", "title": "The problems listed without solutions", "statement": "The docstring of the database lists twenty parameter sets with an empty list of solutions. Their names decode to parameters that the command line accepts, and none of them is stored. For all of them but (65,32,15,16) a strongly regular graph exists, and the command line prints one; for (65,32,15,16) it ends without an error. If correct solutions were stored, test_determinant would accept them for (35,16,6,8), (36,10,4,2), (40,12,2,4) and the five conference sets, and reject them for the other twelve.", "quantifier": "all twenty parameter sets; all argument lists that parse to them; all non-empty lists of strongly regular matrices; all functions returning exact eigenvalues in any order", "why_tests_cant": "the searches are far too long to run, and nothing is stored that a test could read", "anchors": ["srg/database/__init__.py", "srg/database/__init__.py:get_solutions", "srg/database/__init__.py:extract_vklu", "srg/__main__.py", "tests/test_database.py:test_determinant"]}
{"id": "C83", "title": "Which parts of the program can be started", "statement": "An import succeeds exactly if every module asked for, directly or indirectly, is there, and otherwise ends with ImportError. In this repository no module asks for itself indirectly. python -m srg starts exactly if numpy and click are installed, but setup.py does not ask for click. A copy installed with setup.py consists of the modules directly in srg, and has no srg.database. python -m srg.database never starts. draw needs numpy, networkx and matplotlib; test_sort needs numpy, the other tests need numpy, click and pytest. With the packages that setup.py asks for, the drawings and test_sort can be started, and with click in addition the command and the other tests. python -m srg always loads the same modules in the same order. Nothing asks for srg.partition. cythonize.sh compiles every file of the package except __main__, pprint and sorter, uncythonize.sh undoes it, and the script run by profile_performance.sh is missing.", "quantifier": "all sets of installed packages; for the first claim all sets of source files; for the scripts all sets of files", "why_tests_cant": "a test runs with one set of installed packages, in the working directory of the repository", "anchors": ["setup.py", "srg/__main__.py", "srg/database/__main__.py", "srg/database/__init__.py:draw", "srg/pprint.py", "cythonize.sh", "uncythonize.sh", "profile_performance.sh", "tests/test_solver.py", "exp.py"]}
{"id": "C84", "title": "Results with a single vertex of too small degree", "statement": "Suppose that exactly one vertex of a result of the search has too few neighbours. Then (l-u)^2+4(k-u) is the square of an integer t > 0, t divides 2(k-1)+(v-3)(l-u), and the quotient has the parity of v-3. Moreover no strongly regular graph with the parameters v, k, l, u exists. So if such a graph exists, every wrong result has at least two vertices with too few neighbours. With at most 66 vertices there are only 17 sets of parameters meeting the condition, among them (22,9,4,3). For (22,9,4,3), where the search returns such a result, no strongly regular graph exists.", "quantifier": "all parameters accepted by assert_srg with 3 <= v <= 66, all results, all vertices", "why_tests_cant": "wrong results are rare and need long searches; the claim compares them with all graphs on v vertices", "anchors": ["srg/solver.py:solve", "srg/solver.py:advance", "srg/solver.py:solve_question", "srg/utils.py:assert_srg"]}
{"id": "C85", "title": "Which parameters have a right answer", "statement": "Let assert_srg accept the parameters, and let 0 <= l < k < v, 2k-l <= v. Some result of the search is strongly regular with the requested parameters exactly when u = 0 and k+1 divides v, or u = k and v-k divides v, or (v,k,l,u) or the parameters of the complementary graph are in a list of 43 sets; left out are (49,16,3,6), (57,14,1,4), (65,32,15,16) and their complements. The same holds for what the command line prints, and the search with the check of C62 comes out empty exactly for the other parameters. Among these are (21,10,4,5), (33,16,7,8), (57,28,13,14) by the condition of Belevitch (v of a conference graph is a sum of two squares), (28,9,0,4), (56,22,3,12), (63,22,1,11), (64,21,0,10) by the condition of Krein, and (50,21,4,12), (64,30,18,10) by the absolute bound. These three conditions hold for every strongly regular graph.", "quantifier": "all parameters that assert_srg accepts with 3 <= v <= 66 outside the three pairs left out, all results; for 0 < u < k < v-1 also without the counting condition; the three conditions for all strongly regular graphs without a bound", "why_tests_cant": "the searches do not end within any reasonable time for most of these parameters, and that no result is right is a statement about all graphs", "anchors": ["srg/solver.py:solve", "srg/solver.py:advance", "srg/utils.py:assert_srg", "srg/utils.py:eig", "srg/__main__.py"]}
