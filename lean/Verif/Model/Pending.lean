import Verif.Model.Database

/-! The problems without stored solutions. -/

namespace TDS

namespace Database

/-- The names in the docstring of the package, each assigned its parameters and an empty list
(/repo/srg/database/__init__.py:6-25). -/
def pending : List String :=
  ["problem_35_16_6_8", "problem_36_10_4_2", "problem_37_18_8_9", "problem_40_12_2_4",
   "problem_40_27_18_18", "problem_41_20_9_10", "problem_45_12_3_3", "problem_45_32_22_24",
   "problem_49_12_5_2", "problem_49_30_17_20", "problem_50_21_8_9", "problem_50_28_15_16",
   "problem_53_26_12_13", "problem_55_18_9_4", "problem_56_10_0_2", "problem_57_24_11_9",
   "problem_61_30_14_15", "problem_63_30_13_15", "problem_64_14_6_2", "problem_65_32_15_16"]

end Database

end TDS
