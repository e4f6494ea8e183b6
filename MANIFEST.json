{
 "claims": [
  {
   "property": "C01",
   "status": "proved",
   "theorems": [
    "TDS.C01_complete",
    "TDS.C01_nonexistence",
    "TDS.C01_side_condition_needed"
   ],
   "note": "Against Mathlib's SimpleGraph.IsSRGWith. For k=0 the parameter l must be 0 (the seed reads it); shown necessary."
  },
  {
   "property": "C02",
   "status": "partial",
   "theorems": [
    "TDS.C02_false",
    "TDS.C02_sound_partial",
    "TDS.C02_sound_of_regular"
   ],
   "note": "False as stated: solve on (22,9,4,3) returns a non-regular matrix (C02_false). Proved: upper bounds everywhere, exactness of the last row, and a finished matrix is strongly regular iff all row sums are k."
  },
  {
   "property": "C03",
   "status": "proved",
   "theorems": [
    "TDS.C03_structure",
    "TDS.C03_shape",
    "TDS.C03_general",
    "TDS.C03_loop"
   ],
   "note": ""
  },
  {
   "property": "C04",
   "status": "proved",
   "theorems": [
    "TDS.C04_nodup",
    "TDS.C04_advance_nodup"
   ],
   "note": ""
  },
  {
   "property": "C05",
   "status": "proved",
   "theorems": [
    "TDS.C05_total",
    "TDS.C05_fails_at_two"
   ],
   "note": "All integers k,l,u, 3<=v<=66; v=2 fails."
  },
  {
   "property": "C06",
   "status": "proved",
   "theorems": [
    "TDS.C06_from_matrix"
   ],
   "note": "u as computed by vklu must fit in int8 and be nonnegative."
  },
  {
   "property": "C07",
   "status": "proved",
   "theorems": [
    "TDS.C07_all_rows"
   ],
   "note": ""
  },
  {
   "property": "C08",
   "status": "partial",
   "theorems": [
    "TDS.C08_false",
    "TDS.C08_rows_le_partial"
   ],
   "note": "False as stated (C08_false); inequality version proved."
  },
  {
   "property": "C09",
   "status": "proved",
   "theorems": [
    "TDS.C09_rows_nodup"
   ],
   "note": ""
  },
  {
   "property": "C10",
   "status": "proved",
   "theorems": [
    "TDS.C10_advance_total",
    "TDS.C10_outcome"
   ],
   "note": ""
  },
  {
   "property": "C11",
   "status": "proved",
   "theorems": [
    "TDS.C11_canonical"
   ],
   "note": ""
  },
  {
   "property": "C12",
   "status": "proved",
   "theorems": [
    "TDS.C12_elim_keeps"
   ],
   "note": ""
  },
  {
   "property": "C13",
   "status": "partial",
   "theorems": [
    "TDS.C13_false",
    "TDS.C13_elim_adds_nothing_partial"
   ],
   "note": "False as stated: rows that become zero and duplicate rows are dropped even when their right-hand sides conflict (C13_false). Proved for consistent systems."
  },
  {
   "property": "C14",
   "status": "proved",
   "theorems": [
    "TDS.C14_elim_reduced"
   ],
   "note": ""
  },
  {
   "property": "C15",
   "status": "proved",
   "theorems": [
    "TDS.C15_steps",
    "TDS.C15_first"
   ],
   "note": ""
  },
  {
   "property": "C16",
   "status": "proved",
   "theorems": [
    "TDS.C16_set_order"
   ],
   "note": ""
  },
  {
   "property": "C17",
   "status": "proved",
   "theorems": [
    "TDS.C17_fork"
   ],
   "note": ""
  },
  {
   "property": "C18",
   "status": "proved",
   "theorems": [
    "TDS.C18_loop"
   ],
   "note": ""
  },
  {
   "property": "C19",
   "status": "proved",
   "theorems": [
    "TDS.C19_enum",
    "TDS.C19_asserts"
   ],
   "note": ""
  },
  {
   "property": "C20",
   "status": "proved",
   "theorems": [
    "TDS.C20_enum"
   ],
   "note": ""
  },
  {
   "property": "C21",
   "status": "proved",
   "theorems": [
    "TDS.C21_round_trip",
    "TDS.C21_expand",
    "TDS.C21_false_at_65"
   ],
   "note": "At most 64 rows; collision witness at 65."
  },
  {
   "property": "C22",
   "status": "proved",
   "theorems": [
    "TDS.C22_codes",
    "TDS.C22_false_at_65"
   ],
   "note": ""
  },
  {
   "property": "C23",
   "status": "proved",
   "theorems": [
    "TDS.C23_round_trip",
    "TDS.C23_false_at_64",
    "TDS.C23_zero_row_needed",
    "TDS.C23_first_column_needed"
   ],
   "note": ""
  },
  {
   "property": "C24",
   "status": "proved",
   "theorems": [
    "TDS.C24_sorted",
    "TDS.C24_unique",
    "TDS.C24_canonical",
    "TDS.C24_empty"
   ],
   "note": "Matrices of one size with at least one row."
  },
  {
   "property": "C25",
   "status": "proved",
   "theorems": [
    "TDS.C25_relabels"
   ],
   "note": ""
  },
  {
   "property": "C26",
   "status": "partial",
   "theorems": [
    "TDS.C26_false",
    "TDS.C26_monotone_partial",
    "TDS.C26_first_row",
    "TDS.C26_not_maximum"
   ],
   "note": "False for arbitrary tie-breaking (C26_false); monotone when argsort leaves sorted input alone; the row 0 part holds for every tie-breaking."
  },
  {
   "property": "C27",
   "status": "proved",
   "theorems": [
    "TDS.C27_outcome"
   ],
   "note": ""
  },
  {
   "property": "C28",
   "status": "proved",
   "theorems": [
    "TDS.C28_swap",
    "TDS.C28_verify",
    "TDS.C28_index"
   ],
   "note": ""
  },
  {
   "property": "C29",
   "status": "proved",
   "theorems": [
    "TDS.C29_complement",
    "TDS.C29_shapes"
   ],
   "note": ""
  },
  {
   "property": "C30",
   "status": "proved",
   "theorems": [
    "TDS.C30_involution",
    "TDS.C30_params",
    "TDS.C30_diagonal_needed"
   ],
   "note": ""
  },
  {
   "property": "C31",
   "status": "proved",
   "theorems": [
    "TDS.C31_accepts",
    "TDS.C31_accepts_graph",
    "TDS.C31_complement"
   ],
   "note": ""
  },
  {
   "property": "C32",
   "status": "proved",
   "theorems": [
    "TDS.C32_seed",
    "TDS.C32_slices"
   ],
   "note": ""
  },
  {
   "property": "C33",
   "status": "proved",
   "theorems": [
    "TDS.C33_round_trip",
    "TDS.C33_injective",
    "TDS.C33_get_solutions",
    "TDS.C33_command_fails",
    "TDS.C33_split",
    "TDS.C33_extract",
    "TDS.C33_extract_error"
   ],
   "note": "Also: python -m srg.database always stops with ImportError (C33_command_fails)."
  },
  {
   "property": "C34",
   "status": "proved",
   "theorems": [
    "TDS.C34_binarize",
    "TDS.C34_injective"
   ],
   "note": ""
  },
  {
   "property": "C35",
   "status": "proved",
   "theorems": [
    "TDS.C35_widths",
    "TDS.C35_solver",
    "TDS.C35_sorted_not_checked"
   ],
   "note": "The 'sorted' check of the constructor is refuted with a witness."
  },
  {
   "property": "C36",
   "status": "proved",
   "theorems": [
    "TDS.C36_bounds",
    "TDS.C36_row_order"
   ],
   "note": ""
  },
  {
   "property": "C37",
   "status": "proved",
   "theorems": [
    "TDS.C37_sort"
   ],
   "note": ""
  },
  {
   "property": "C38",
   "status": "proved",
   "theorems": [
    "TDS.C38_arguments",
    "TDS.C38_rejects",
    "TDS.C38_output",
    "TDS.C38_increasing",
    "TDS.C38_small",
    "TDS.C38_small_missed",
    "TDS.C38_negative",
    "TDS.C38_parse",
    "TDS.C38_literals"
   ],
   "note": ""
  },
  {
   "property": "C39",
   "status": "proved",
   "theorems": [
    "TDS.C39_reachable",
    "TDS.C39_snapshot",
    "TDS.C39_children",
    "TDS.C39_frame",
    "TDS.C39_search",
    "TDS.C39_total"
   ],
   "note": "Model with arrays in memory (Model/Heap.lean): in-place writes, copies and allocations are explicit; the search over memory returns what the value model returns."
  },
  {
   "property": "C40",
   "status": "proved",
   "theorems": [
    "TDS.C40_eig",
    "TDS.C40_integral",
    "TDS.C40_determinant",
    "TDS.C40_errors",
    "TDS.C40_values",
    "TDS.C40_zero"
   ],
   "note": "Floats are modelled as real numbers."
  },
  {
   "property": "C41",
   "status": "proved",
   "theorems": [
    "TDS.C41_stored_srg",
    "TDS.C41_loadable"
   ],
   "note": ""
  },
  {
   "property": "C42",
   "status": "proved",
   "theorems": [
    "TDS.C42_increasing",
    "TDS.C42_unsorted",
    "TDS.C42_distinct"
   ],
   "note": ""
  },
  {
   "property": "C43",
   "status": "proved",
   "theorems": [
    "TDS.C43_eq",
    "TDS.C43_invariant",
    "TDS.C43_debug"
   ],
   "note": ""
  },
  {
   "property": "C44",
   "status": "proved",
   "theorems": [
    "TDS.C44_exact",
    "TDS.C44_regular"
   ],
   "note": ""
  },
  {
   "property": "C45",
   "status": "proved",
   "theorems": [
    "TDS.C45_complete",
    "TDS.C45_found",
    "TDS.C45_found_again",
    "TDS.C45_printed"
   ],
   "note": "The exhaustive searches behind C45_complete are evaluated by the kernel (Find/) with a search proved exhaustive in Proof/Fast, Proof/Pack and Proof/Canon."
  },
  {
   "property": "C46",
   "status": "proved",
   "theorems": [
    "TDS.C46_classified",
    "TDS.C46_all",
    "TDS.C46_alone",
    "TDS.C46_none",
    "TDS.C46_duplicates"
   ],
   "note": ""
  },
  {
   "property": "C47",
   "status": "proved",
   "theorems": [
    "TDS.C47_missing",
    "TDS.C47_complete_iff",
    "TDS.C47_search_finds"
   ],
   "note": ""
  },
  {
   "property": "C48",
   "status": "proved",
   "theorems": [
    "TDS.C48_identity",
    "TDS.C48_diagonal_needed",
    "TDS.C48_property",
    "TDS.C48_property_accepts",
    "TDS.C48_property_weak",
    "TDS.C48_stored"
   ],
   "note": ""
  },
  {
   "property": "C49",
   "status": "proved",
   "theorems": [
    "TDS.C49_solve",
    "TDS.C49_accepts_nothing",
    "TDS.C49_accepts_empty",
    "TDS.C49_printed",
    "TDS.C49_question",
    "TDS.C49_question_stored",
    "TDS.C49_question_empty",
    "TDS.C49_sort",
    "TDS.C49_sort_ties"
   ],
   "note": ""
  },
  {
   "property": "C50",
   "status": "proved",
   "theorems": [
    "TDS.C50_idempotent",
    "TDS.C50_ties",
    "TDS.C50_justified",
    "TDS.C50_search",
    "TDS.C50_stored",
    "TDS.C50_not_found"
   ],
   "note": ""
  },
  {
   "property": "C51",
   "status": "proved",
   "theorems": [
    "TDS.C51_row_missed",
    "TDS.C51_row_wrong",
    "TDS.C51_cocktail",
    "TDS.C51_graph_missed",
    "TDS.C51_step_raises",
    "TDS.C51_parameters_wrap"
   ],
   "note": "numpy left shifts by 64 or more are taken to give 0, like the 64-bit wrap-around of the model."
  },
  {
   "property": "C52",
   "status": "proved",
   "theorems": [
    "TDS.C52_determinant",
    "TDS.C52_stored",
    "TDS.C52_wraps"
   ],
   "note": "Eigenvalues are exact real numbers."
  },
  {
   "property": "C53",
   "status": "proved",
   "theorems": [
    "TDS.C53_names",
    "TDS.C53_graph",
    "TDS.C53_draw",
    "TDS.C53_missing"
   ],
   "note": "Layout and rendering are not modelled."
  },
  {
   "property": "C54",
   "status": "proved",
   "theorems": [
    "TDS.C54_same_graph",
    "TDS.C54_not_equal",
    "TDS.C54_compose"
   ],
   "note": "compose is modelled for functions of one argument."
  },
  {
   "property": "C55",
   "status": "proved",
   "theorems": [
    "TDS.C55_stack",
    "TDS.C55_rounds"
   ],
   "note": ""
  },
  {
   "property": "C56",
   "status": "proved",
   "theorems": [
    "TDS.C56_neighbours",
    "TDS.C56_degrees",
    "TDS.C56_balance",
    "TDS.C56_inside",
    "TDS.C56_single",
    "TDS.C56_two",
    "TDS.C56_multipartite",
    "TDS.C56_first",
    "TDS.C56_almost",
    "TDS.C56_almost_empty"
   ],
   "note": "Complements C02, which is false in general."
  },
  {
   "property": "C57",
   "status": "proved",
   "theorems": [
    "TDS.C57_heap",
    "TDS.C57_cpython",
    "TDS.C57_heapify"
   ],
   "note": "Line by line transcription of CPython 3.11 Lib/heapq.py; discharges the heapq contract of the trusted base."
  },
  {
   "property": "C58",
   "status": "proved",
   "theorems": [
    "TDS.C58_multipartite",
    "TDS.C58_cliques"
   ],
   "note": "Uses C01, C44 and C56."
  },
  {
   "property": "C59",
   "status": "proved",
   "theorems": [
    "TDS.C59_model",
    "TDS.C59_matrix",
    "TDS.C59_format"
   ],
   "note": "A second copy of the search with the format as a parameter; C59_model ties it to the first."
  },
  {
   "property": "C60",
   "status": "proved",
   "theorems": [
    "TDS.C60_full",
    "TDS.C60_header",
    "TDS.C60_run",
    "TDS.C60_layout",
    "TDS.C60_corners",
    "TDS.C60_hidden",
    "TDS.C60_ambiguous",
    "TDS.C60_errors"
   ],
   "note": "Includes the finding that answers with 32 or more points are not printed in full."
  },
  {
   "property": "C61",
   "status": "proved",
   "theorems": [
    "TDS.C61_single",
    "TDS.C61_overfull",
    "TDS.C61_exact",
    "TDS.C61_count"
   ],
   "note": "Strengthens C58_cliques: no wrong results for u = 0."
  },
  {
   "property": "C62",
   "status": "proved",
   "theorems": [
    "TDS.C62_elim",
    "TDS.C62_rows",
    "TDS.C62_checked",
    "TDS.C62_exact",
    "TDS.C62_removes_wrong"
   ],
   "note": "About the corrected program of Model/Checked.lean, compared with the one in /repo; C02, C08 and C13 hold in full for it."
  },
  {
   "property": "C63",
   "status": "proved",
   "theorems": [
    "TDS.C63_u_unused",
    "TDS.C63_remainder",
    "TDS.C63_checked"
   ],
   "note": ""
  },
  {
   "property": "C64",
   "status": "proved",
   "theorems": [
    "TDS.C64_results",
    "TDS.C64_count",
    "TDS.C64_upper",
    "TDS.C64_cliques",
    "TDS.C64_lower",
    "TDS.C64_once"
   ],
   "note": ""
  },
  {
   "property": "C65",
   "status": "proved",
   "theorems": [
    "TDS.C65_outs",
    "TDS.C65_search_first",
    "TDS.C65_seed",
    "TDS.C65_error"
   ],
   "note": ""
  },
  {
   "property": "C66",
   "status": "proved",
   "theorems": [
    "TDS.C66_broken",
    "TDS.C66_names",
    "TDS.C66_list",
    "TDS.C66_draw",
    "TDS.C66_nothing",
    "TDS.C66_extra"
   ],
   "note": ""
  },
  {
   "property": "C67",
   "status": "proved",
   "theorems": [
    "TDS.C67_split",
    "TDS.C67_prefix",
    "TDS.C67_resume",
    "TDS.C67_again",
    "TDS.C67_disjoint",
    "TDS.C67_exact",
    "TDS.C67_adjacent_needed"
   ],
   "note": ""
  },
  {
   "property": "C68",
   "status": "proved",
   "theorems": [
    "TDS.C68_numbers",
    "TDS.C68_injective",
    "TDS.C68_docstring",
    "TDS.C68_width",
    "TDS.C68_str",
    "TDS.C68_list",
    "TDS.C68_dtype"
   ],
   "note": "arrays of at most 1000 entries, which numpy prints in full"
  },
  {
   "property": "C69",
   "status": "proved",
   "theorems": [
    "TDS.C69_counts",
    "TDS.C69_bound"
   ],
   "note": ""
  },
  {
   "property": "C70",
   "status": "proved",
   "theorems": [
    "TDS.C70_unique",
    "TDS.C70_expand",
    "TDS.C70_fork",
    "TDS.C70_bounds",
    "TDS.C70_bounds_main",
    "TDS.C70_partition",
    "TDS.C70_gauss",
    "TDS.C70_answer",
    "TDS.C70_reduce_col",
    "TDS.C70_print"
   ],
   "note": "closed statements; they also check the model against the values its authors wrote down"
  },
  {
   "property": "C71",
   "status": "proved",
   "theorems": [
    "TDS.C71_found",
    "TDS.C71_relabels",
    "TDS.C71_correspond",
    "TDS.C71_classified",
    "TDS.C71_numbers",
    "TDS.C71_not_stored"
   ],
   "note": "complement, complement_vklu and the search taken together"
  },
  {
   "property": "C72",
   "status": "proved",
   "theorems": [
    "TDS.C72_eig",
    "TDS.C72_errors",
    "TDS.C72_zero",
    "TDS.C72_determinant",
    "TDS.C72_conference_eig",
    "TDS.C72_conference_determinant",
    "TDS.C72_digits",
    "TDS.C72_wrong",
    "TDS.C72_test",
    "TDS.C72_test_conference",
    "TDS.C72_stored"
   ],
   "note": "removes the exact-arithmetic simplification of C40 and C52; overflow and underflow are still left out"
  },
  {
   "property": "C73",
   "status": "proved",
   "theorems": [
    "TDS.C73_result",
    "TDS.C73_silent",
    "TDS.C73_prints",
    "TDS.C73_fork",
    "TDS.C73_failed",
    "TDS.C73_steps"
   ],
   "note": "texts and colour names; escape codes are left out"
  },
  {
   "property": "C74",
   "status": "proved",
   "theorems": [
    "TDS.C74_blocks",
    "TDS.C74_consecutive",
    "TDS.C74_unsorted"
   ],
   "note": ""
  },
  {
   "property": "C75",
   "status": "proved",
   "theorems": [
    "TDS.C75_exact",
    "TDS.C75_small",
    "TDS.C75_parameters",
    "TDS.C75_unique"
   ],
   "note": ""
  },
  {
   "property": "C76",
   "status": "proved",
   "theorems": [
    "TDS.C76_command",
    "TDS.C76_geometry",
    "TDS.C76_net",
    "TDS.C76_rook",
    "TDS.C76_latin",
    "TDS.C76_slopes",
    "TDS.C76_steiner",
    "TDS.C76_triangular",
    "TDS.C76_paley"
   ],
   "note": ""
  },
  {
   "property": "C77",
   "status": "proved",
   "theorems": [
    "TDS.C77_close",
    "TDS.C77_room",
    "TDS.C77_dense",
    "TDS.C77_odd",
    "TDS.C77_one",
    "TDS.C77_void",
    "TDS.C77_command"
   ],
   "note": ""
  },
  {
   "property": "C78",
   "status": "proved",
   "theorems": [
    "TDS.C78_row",
    "TDS.C78_close",
    "TDS.C78_sum",
    "TDS.C78_full",
    "TDS.C78_last",
    "TDS.C78_missing",
    "TDS.C78_commute",
    "TDS.C78_single",
    "TDS.C78_form",
    "TDS.C78_local"
   ],
   "note": "Complements C02, which is false in general."
  },
  {
   "property": "C79",
   "status": "partial",
   "theorems": [
    "TDS.C79_some",
    "TDS.C79_right_partial",
    "TDS.C79_false"
   ],
   "note": "The first half is proved (C79_some). The second half is false: a step of the search for (13, 6, 2, 3) finds one right row and one wrong row (C79_false). It is proved for steps that find one row only."
  },
  {
   "property": "C80",
   "status": "proved",
   "theorems": [
    "TDS.C80_question",
    "TDS.C80_step",
    "TDS.C80_all",
    "TDS.C80_regular",
    "TDS.C80_exact",
    "TDS.C80_same"
   ],
   "note": "Model/Quota.lean is the program without the guard; everything else in it is copied."
  },
  {
   "property": "C81",
   "status": "proved",
   "theorems": [
    "TDS.C81_only_failures",
    "TDS.C81_step",
    "TDS.C81_search",
    "TDS.C81_maximize",
    "TDS.C81_unchecked",
    "TDS.C81_wrong",
    "TDS.C81_witness",
    "TDS.C81_small",
    "TDS.C81_partition"
   ],
   "note": "Model/Opt.lean is the program without assertions. Beyond a failing assertion it does not claim to follow numpy; only the statements on main, swap_and_verify and partition.enum go there."
  },
  {
   "property": "C82",
   "status": "proved",
   "theorems": [
    "TDS.C82_parameters",
    "TDS.C82_absent",
    "TDS.C82_exist",
    "TDS.C82_found",
    "TDS.C82_determinant"
   ],
   "note": "Existence for (65,32,15,16) is not claimed. Eigenvalues are exact, as in C52."
  },
  {
   "property": "C83",
   "status": "proved",
   "theorems": [
    "TDS.C83_import",
    "TDS.C83_main",
    "TDS.C83_database",
    "TDS.C83_util",
    "TDS.C83_tests",
    "TDS.C83_acyclic",
    "TDS.C83_modules",
    "TDS.C83_unused",
    "TDS.C83_scripts",
    "TDS.C83_loaded",
    "TDS.C83_requires",
    "TDS.C83_compiled",
    "TDS.C83_packages"
   ],
   "note": "Modules from outside are present or absent as a whole; packages that other packages bring along count as installed."
  },
  {
   "property": "C84",
   "status": "proved",
   "theorems": [
    "TDS.C84_condition",
    "TDS.C84_none",
    "TDS.C84_two",
    "TDS.C84_list",
    "TDS.C84_sample"
   ],
   "note": ""
  },
  {
   "property": "C85",
   "status": "proved",
   "theorems": [
    "TDS.C85_all",
    "TDS.C85_list",
    "TDS.C85_printed",
    "TDS.C85_command",
    "TDS.C85_repaired",
    "TDS.C85_excluded",
    "TDS.C85_krein",
    "TDS.C85_conference",
    "TDS.C85_absolute"
   ],
   "note": ""
  }
 ]
}