import Verif.Model.Np

/-! Import statements, installation and the shell scripts.

A module of the repository is described by its import statements and the names it defines at the top level.
Relative imports are written absolutely.  Modules from outside are either there or not; if one is there, so
are all its submodules and names.  A module already loaded, or being loaded, is not loaded again; names taken
from a module that is still being loaded are supposed to be there (no such case arises, see C83). -/

namespace TDS

namespace Imports

/-- A dotted name (/repo/srg/*.py, the import statements). -/
abbrev Name := List String

/-- A source file: module name, whether it is an `__init__.py`, import statements outside of functions and of
the part only run as a script (each a module and the names taken from it), names defined. -/
structure File where
  name : Name
  pkg : Bool
  imports : List (Name × List String)
  defines : List String
  deriving DecidableEq

/-- /repo/exp.py:4-8. -/
def f_exp : File where
  name := ["exp"]
  pkg := false
  imports := [(["srg"], ["sorter"]), (["srg"], ["utils"]), (["numpy"], []),
    (["srg", "database"], ["problem_10_6_3_4"]), (["srg", "database"], ["problem_10_3_0_1"])]
  defines := ["sorter", "utils", "np", "pp", "pn", "s0", "s1", "t0", "t1", "u0", "u1", "v"]

/-- /repo/srg/__init__.py. -/
def f_srg_init : File where
  name := ["srg"]
  pkg := true
  imports := []
  defines := []

/-- /repo/srg/__main__.py:4-9. -/
def f_srg_main : File where
  name := ["srg", "__main__"]
  pkg := false
  imports := [(["srg", "srg"], ["SRG", "array"]), (["srg"], ["pprint"]), (["srg"], ["utils"]),
    (["srg"], ["solver"]), (["srg"], ["sorter"]), (["sys"], [])]
  defines := ["SRG", "array", "pprint", "utils", "solver", "sorter", "sys"]

/-- /repo/srg/bounds.py:3-5. -/
def f_srg_bounds : File where
  name := ["srg", "bounds"]
  pkg := false
  imports := [(["numpy"], []), (["collections"], ["defaultdict"]), (["srg"], ["srg"])]
  defines := ["np", "defaultdict", "srg", "lower_upper_bound", "zero_bound_loc",
    "one_element_row_locs"]

/-- /repo/srg/database/__init__.py. -/
def f_srg_database_init : File where
  name := ["srg", "database"]
  pkg := true
  imports := []
  defines := ["list_problems", "extract_vklu", "get_solutions", "draw"]

/-- /repo/srg/database/__main__.py:1-4. -/
def f_srg_database_main : File where
  name := ["srg", "database", "__main__"]
  pkg := false
  imports := [(["srg", "database"], ["list_problems", "get_solutions", "draw"]),
    (["srg"], ["util"]), (["sys"], []), (["pprint"], ["pprint"])]
  defines := ["list_problems", "get_solutions", "draw", "util", "sys", "pprint", "cmd", "v", "k",
    "l", "u"]

/-- /repo/srg/fork.py:3-4. -/
def f_srg_fork : File where
  name := ["srg", "fork"]
  pkg := false
  imports := [(["numpy"], []), (["srg"], ["srg"])]
  defines := ["np", "srg", "_pop_col", "_pop_ele", "enum"]

/-- /repo/srg/gauss_elim.py:3-5. -/
def f_srg_gauss_elim : File where
  name := ["srg", "gauss_elim"]
  pkg := false
  imports := [(["heapq"], []), (["numpy"], []), (["srg"], ["srg"])]
  defines := ["heapq", "np", "srg", "_remove_zerokeys", "_gauss_elim", "_elim", "_encode",
    "_dec2bin", "_decode", "sort", "elim"]

/-- /repo/srg/partition.py. -/
def f_srg_partition : File where
  name := ["srg", "partition"]
  pkg := false
  imports := []
  defines := ["enum"]

/-- /repo/srg/pprint.py:3-4. -/
def f_srg_pprint : File where
  name := ["srg", "pprint"]
  pkg := false
  imports := [(["click"], []), (["functools"], ["partial", "reduce"])]
  defines := ["click", "partial", "reduce", "_compose2", "compose", "_print", "green", "blue",
    "red", "yellow", "clear"]

/-- /repo/srg/solver.py:4-14. -/
def f_srg_solver : File where
  name := ["srg", "solver"]
  pkg := false
  imports := [(["itertools"], ["chain"]), (["typing"], ["Iterator"]), (["srg", "srg"], ["array"]),
    (["srg", "srg"], ["SRG"]), (["numpy"], []), (["collections"], ["defaultdict"]),
    (["srg"], ["gauss_elim", "unique", "bounds", "fork", "srg"]),
    (["srg", "srg"], ["Question", "Answer", "NoSolution"]), (["srg", "utils"], ["debug"]),
    (["functools"], ["wraps"]), (["functools"], ["reduce"])]
  defines := ["chain", "Iterator", "array", "SRG", "np", "defaultdict", "gauss_elim", "unique",
    "bounds", "fork", "srg", "Question", "Answer", "NoSolution", "debug", "wraps", "reduce",
    "_seed", "raiseExceptionIfNotSolvableAfterwards", "reduce_col", "eliminate", "zero_in_b",
    "only_1_element_in_row", "fork_enum", "solve_question", "partition_by_done", "advance", "solve"]

/-- /repo/srg/sorter.py:4-7. -/
def f_srg_sorter : File where
  name := ["srg", "sorter"]
  pkg := false
  imports := [(["functools"], ["cmp_to_key"]), (["numpy"], []),
    (["collections"], ["deque", "namedtuple"])]
  defines := ["cmp_to_key", "np", "deque", "namedtuple", "SortInstruct", "AdjMat", "maximize",
    "_cmp_1d_bin_array", "_encode", "_cmp_srg_matrix", "sort", "swap", "swap_and_verify"]

/-- /repo/srg/srg.py:4-5. -/
def f_srg_srg : File where
  name := ["srg", "srg"]
  pkg := false
  imports := [(["numpy"], []), (["functools"], ["partial"])]
  defines := ["np", "partial", "array", "ones", "zeros", "identity", "NoSolution", "Answer",
    "Question", "SRG", "vklu"]

/-- /repo/srg/unique.py:4. -/
def f_srg_unique : File where
  name := ["srg", "unique"]
  pkg := false
  imports := [(["numpy"], [])]
  defines := ["np", "_encode", "reduce", "expand"]

/-- /repo/srg/utils.py:4-7. -/
def f_srg_utils : File where
  name := ["srg", "utils"]
  pkg := false
  imports := [(["srg", "srg"], ["Question"]), (["srg"], ["pprint"]), (["numpy"], []),
    (["srg"], ["srg"])]
  defines := ["Question", "pprint", "np", "srg", "eig", "conference", "determinant", "assert_srg",
    "complement_vklu", "_invert", "complement", "debug"]

/-- /repo/tests/test_database.py:3-9. -/
def f_tests_test_database : File where
  name := ["test_database"]
  pkg := false
  imports := [(["srg"], ["utils"]), (["srg"], ["database"]), (["srg"], ["srg"]),
    (["srg"], ["sorter"]), (["numpy"], []), (["pytest"], [])]
  defines := ["__author__", "utils", "db", "srg", "sorter", "np", "pytest", "problems_all",
    "problems", "test_matrix_property", "test_determinant", "test_srg_matrix_identity"]

/-- /repo/tests/test_solver.py:1-7. -/
def f_tests_test_solver : File where
  name := ["test_solver"]
  pkg := false
  imports := [(["srg"], ["srg"]), (["srg", "srg"], ["Question", "Answer", "SRG", "array"]),
    (["srg"], ["solver"]), (["srg"], ["database"]), (["srg"], ["sorter"]), (["numpy"], []),
    (["pytest"], [])]
  defines := ["srg", "Question", "Answer", "SRG", "array", "solver", "db", "sorter", "np", "pytest",
    "problems_all", "problems", "test_solve", "test_solve_question", "test2"]

/-- /repo/tests/test_sort.py:2-4. -/
def f_tests_test_sort : File where
  name := ["test_sort"]
  pkg := false
  imports := [(["numpy"], []), (["srg"], ["sorter"]), (["srg"], ["srg"])]
  defines := ["__author__", "np", "sorter", "srg", "test_9_4_1_2", "test_13_6_2_3"]

/-- The files /repo/srg/database/problem_*.py: each has the statement `from numpy import array` and defines
`v, k, l, u` and `solutions`. -/
def problem (s : String) : File where
  name := ["srg", "database", s]
  pkg := false
  imports := [(["numpy"], ["array"])]
  defines := ["array", "v", "k", "l", "u", "solutions"]

/-- Names of the files /repo/srg/database/problem_*.py. -/
def problems : List String :=
  ["problem_10_3_0_1", "problem_10_6_3_4", "problem_12_6_0_6", "problem_13_6_2_3",
   "problem_15_6_1_3", "problem_15_8_4_4", "problem_16_10_6_6", "problem_16_5_0_2",
   "problem_16_6_2_2", "problem_16_9_4_6", "problem_17_8_3_4", "problem_21_10_4_5",
   "problem_21_10_5_4", "problem_25_12_5_6", "problem_25_8_3_2", "problem_26_10_3_4",
   "problem_27_10_1_5", "problem_28_12_6_4", "problem_29_14_6_7", "problem_4_2_0_2",
   "problem_5_2_0_1"]

/-- The modules that can be imported in the working directory of the repository, and the tests
(/repo/srg/*.py, the files listed above). -/
def checkout : List File :=
  [f_exp, f_srg_init, f_srg_main, f_srg_bounds, f_srg_database_init, f_srg_database_main,
   f_srg_fork, f_srg_gauss_elim, f_srg_partition, f_srg_pprint, f_srg_solver, f_srg_sorter,
   f_srg_srg, f_srg_unique, f_srg_utils, f_tests_test_database, f_tests_test_solver,
   f_tests_test_sort] ++
    problems.map problem

/-- `packages=['srg']` (/repo/setup.py:20). -/
def packages : List Name := [["srg"]]

/-- `install_requires` (/repo/setup.py:25-30). -/
def requires : List String := ["numpy", "pytest", "networkx", "matplotlib"]

/-- distutils installs the files that lie directly in one of the listed packages (/repo/setup.py:20). -/
def installed : List File :=
  checkout.filter fun f => packages.contains (if f.pkg then f.name else f.name.dropLast)

/-- Modules of the standard library that are imported (/repo/srg/*.py, the import statements). -/
def std : List String :=
  ["collections", "functools", "heapq", "importlib", "itertools", "pkgutil", "pprint", "sys", "typing"]

/-- The packages that enclose a module, outermost first, and the module (/repo/srg/*.py, the import statements). -/
def path : Name → List Name
  | [] => []
  | a :: t => [a] :: (path t).map (a :: ·)

/-- What one statement loads: the module with its packages, then those of the names it does not define
(/repo/srg/*.py, the import statements). -/
def targets (tree : List File) (st : Name × List String) : List Name :=
  path st.1 ++ match tree.find? (fun f => f.name == st.1) with
    | none => []
    | some f => (st.2.filter (fun x => !f.defines.contains x)).map (fun x => st.1 ++ [x])

/-- Loading a module; `L` are the names in `sys.modules`, and `ext` says which modules there are outside of
the repository.  The fuel is the depth of nested loads (/repo/srg/*.py, the import statements). -/
def load (tree : List File) (ext : String → Bool) : Nat → List Name → Name → Res (List Name)
  | 0, _, _ => .error .fuel
  | fuel + 1, L, n =>
    if L.contains n then .ok L
    else match tree.find? (fun f => f.name == n) with
      | none =>
        match n with
        | [] => .error .importErr
        | a :: _ =>
          if tree.any (fun f => f.name == [a]) then .error .importErr
          else if std.contains a || ext a then .ok (n :: L) else .error .importErr
      | some f => (f.imports.flatMap (targets tree)).foldlM (load tree ext fuel) (n :: L)

/-- `import n` (/repo/srg/*.py, the import statements). -/
def importModule (tree : List File) (ext : String → Bool) (n : Name) : Res (List Name) :=
  (path n).foldlM (load tree ext (tree.length + 2)) []

/-- `import srg.database`, then the imports at the head of `draw` and in the call of `get_solutions` that follows
(/repo/srg/database/__init__.py:46-48 and 39-41). -/
def importDraw (tree : List File) (ext : String → Bool) (problem : String) : Res (List Name) :=
  (path ["srg", "database"] ++ path ["networkx"] ++ path ["matplotlib", "pyplot"] ++ path ["importlib"] ++
    path ["srg", "database", problem]).foldlM (load tree ext (tree.length + 2)) []

/-! Shell scripts. -/

/-- A file: directory, name and ending (/repo/cythonize.sh; /repo/uncythonize.sh). -/
abbrev Path := String × String × String

/-- The files in the top directory of the repository and in `srg` (without subdirectories)
(/repo/cythonize.sh; /repo/uncythonize.sh). -/
def files : List Path :=
  [("", "README", "md"), ("", "cythonize", "sh"), ("", "exp", "py"), ("", "profile_performance", "sh"),
   ("", "run_all_tests", "sh"), ("", "setup", "py"), ("", "uncythonize", "sh")] ++
  installed.map fun f => ("srg", if f.pkg then "__init__" else f.name.getLastD "", "py")

/-- The `cp` commands (/repo/cythonize.sh:1-9). -/
def copied : List String :=
  ["__init__", "srg", "utils", "bounds", "fork", "gauss_elim", "partition", "solver", "unique"]

/-- /repo/cythonize.sh:1-11.  Each of the copied files gives a `.pyx`, and `cythonize("srg/*.pyx")`
(/repo/setup.py:31) makes a `.c` and a `.so` from each, the latter with a tag of the platform in its name. -/
def cythonize (tag : String) (fs : List Path) : List Path :=
  fs ++ (copied.filter fun m => fs.contains ("srg", m, "py")).flatMap fun m =>
    [("srg", m, "pyx"), ("srg", m, "c"), ("srg", m ++ tag, "so")]

/-- /repo/uncythonize.sh:1-3. -/
def uncythonize (fs : List Path) : List Path :=
  fs.filter fun p => !(p.1 == "srg" && (p.2.2 == "so" || p.2.2 == "pyx" || p.2.2 == "c"))

/-- The script that /repo/profile_performance.sh runs. -/
def profiled : Path := ("", "experiment", "py")

end Imports

end TDS
