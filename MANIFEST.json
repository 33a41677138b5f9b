{
 "claims": [
  {
   "property": "C01",
   "status": "proved",
   "theorems": [
    "Unyts.C01_bfs",
    "Unyts.C01_lean",
    "Unyts.C01_dfs",
    "Unyts.C01_path_reading"
   ],
   "note": "BFS, lean_BFS, DFS; hybrid_BFS returns one of the two (C06)."
  },
  {
   "property": "C02",
   "status": "proved",
   "theorems": [
    "Unyts.C02_bfs_terminates",
    "Unyts.C02_bfs_complete"
   ],
   "note": ""
  },
  {
   "property": "C03",
   "status": "proved",
   "theorems": [
    "Unyts.C03_bfs_shortest"
   ],
   "note": ""
  },
  {
   "property": "C04",
   "status": "proved",
   "theorems": [
    "Unyts.C04_lean_complete",
    "Unyts.C04_lean_only_if_bfs",
    "Unyts.C04_lean_total",
    "Unyts.C04_needs_distinct_names",
    "Unyts.C04_needs_fresh_snapshot",
    "Unyts.C04_bound_sharp"
   ],
   "note": "Hypotheses on names and snapshot are needed: counterexamples proved beside."
  },
  {
   "property": "C05",
   "status": "proved",
   "theorems": [
    "Unyts.C05_dfs_complete",
    "Unyts.C05_dfs_complete_small",
    "Unyts.C05_dfs_terminates"
   ],
   "note": ""
  },
  {
   "property": "C06",
   "status": "proved",
   "theorems": [
    "Unyts.Hybrid.C06_returns_a_found_path",
    "Unyts.Hybrid.C06_none_means_both_failed",
    "Unyts.Hybrid.C06_never_returns_empty",
    "Unyts.Hybrid.C06_terminates",
    "Unyts.Hybrid.C06_stable",
    "Unyts.Hybrid.C06_hangs_if_a_worker_raises",
    "Unyts.Hybrid.C06_serial",
    "Unyts.Hybrid.C06_serial_terminates"
   ],
   "note": "Also proved: the caller never returns if one search raises and the other finds nothing."
  },
  {
   "property": "C07",
   "status": "proved",
   "theorems": [
    "Unyts.C07_same_value"
   ],
   "note": "Every search algorithm, any memory left by a session; single names."
  },
  {
   "property": "C08",
   "status": "proved",
   "theorems": [
    "Unyts.C08_set_conversion_harmless",
    "Unyts.C08_set_unit_harmless",
    "Unyts.C08_histories"
   ],
   "note": ""
  },
  {
   "property": "C09",
   "status": "partial",
   "theorems": [
    "Unyts.C09_bfs_partial",
    "Unyts.C09_lean_new_names_partial",
    "Unyts.C09_remembered_failure",
    "Unyts.C09_lean_existing_names",
    "Unyts.C09_stale_names"
   ],
   "note": "Proved with BFS from any state without a remembered answer, and with lean_BFS for new names; false after a remembered failure, for existing names under lean_BFS, and after any search under lean_BFS (three proved witnesses)."
  },
  {
   "property": "C10",
   "status": "proved",
   "theorems": [
    "Unyts.C10_default_reverse",
    "Unyts.C10_there_and_back"
   ],
   "note": "Both as a statement on the installed function and through set_conversion + convert."
  },
  {
   "property": "C11",
   "status": "proved",
   "theorems": [
    "Unyts.C11_self",
    "Unyts.C11_no_cache",
    "Unyts.C11_convertible",
    "Unyts.C11_needs_recursion"
   ],
   "note": "Every state a session can leave with recursion limit >= 1, for every unit holding a name; proved false after recursion_limit(0). C11_convertible: in every such state convertible says a single name converts to itself."
  },
  {
   "property": "C12",
   "status": "proved",
   "theorems": [
    "Unyts.C12_here",
    "Unyts.C12_never_number",
    "Unyts.C12_function_and_number",
    "Unyts.C12_function_and_exception"
   ],
   "note": "C12_here holds without conditions, from one and the same state. The other theorems (with the cache in use) compare calls one after the other. Numbers and raised exceptions both agree."
  },
  {
   "property": "C13",
   "status": "proved",
   "theorems": [
    "Unyts.C13_round_trip",
    "Unyts.C13_round_trip_bfs",
    "Unyts.C13_round_trip_lean"
   ],
   "note": "Round trip whenever the library answers; it is proved to answer with BFS and with lean_BFS within its range. Single names, consistent network."
  },
  {
   "property": "C14",
   "status": "proved",
   "theorems": [
    "Unyts.C14_transitive",
    "Unyts.C14_needs_consistency"
   ],
   "note": "Consistency is needed (proved)."
  },
  {
   "property": "C15",
   "status": "proved",
   "theorems": [
    "Unyts.C15_ratio",
    "Unyts.C15_dimension_not_checked"
   ],
   "note": "For every pair of two-term ratios that is not converted as a whole. Also proved: the dimension of the target is not checked (m/s converts to m)."
  },
  {
   "property": "C16",
   "status": "proved",
   "theorems": [
    "Unyts.C16_by_parts",
    "Unyts.C16_proportional"
   ],
   "note": "Every product or quotient with the same shape, any number of factors; whole-unit rules excluded (C24)."
  },
  {
   "property": "C17",
   "status": "proved",
   "theorems": [
    "Unyts.C17_same_again",
    "Unyts.C17_same_at_once",
    "Unyts.C17_not_after_ratios"
   ],
   "note": "At once: every pair. Later: any history of conversions between names; proved false after ratio conversions when the recursion limit poisons the memory."
  },
  {
   "property": "C18",
   "status": "partial",
   "theorems": [
    "Unyts.C18_no_stays_no",
    "Unyts.C18_names_partial",
    "Unyts.C18_ratio_yes_then_no"
   ],
   "note": "A False answer is stable for every pair of units, and both answers are stable for single names; for ratios the code answers True and then False (proved): convertible never forgets the pairs already visited. On the shipped library the second question about every pair of ratios of standard units is answered no (C101_second_question_fails)."
  },
  {
   "property": "C19",
   "status": "proved",
   "theorems": [
    "Unyts.C19_convertible_converts"
   ],
   "note": "With the cache in use."
  },
  {
   "property": "C20",
   "status": "proved",
   "theorems": [
    "Unyts.C20_parentheses",
    "Unyts.C20_decoration",
    "Unyts.C20_final_parenthesis"
   ],
   "note": "Every decoration; limit proved: a closing parenthesis belonging to the unit itself is stripped too (C20_final_parenthesis)."
  },
  {
   "property": "C21",
   "status": "partial",
   "theorems": [
    "Unyts.C21_volume_to_weight_partial",
    "Unyts.C21_weight_to_volume_fails"
   ],
   "note": "Volume to weight for every state; weight to volume always raises (proved): the code keeps the pair (factor, path)."
  },
  {
   "property": "C22",
   "status": "partial",
   "theorems": [
    "Unyts.C22_names_partial",
    "Unyts.C22_value_partial",
    "Unyts.C22_reservoir_partial",
    "Unyts.C22_not_for_ratios"
   ],
   "note": "Names, in every reachable state; false for ratios (proved): their factor is remembered as a number."
  },
  {
   "property": "C23",
   "status": "proved",
   "theorems": [
    "Unyts.C23_table",
    "Unyts.C23_differences",
    "Unyts.C23_gradient",
    "Unyts.C23_library",
    "Unyts.C23_missing_spelling"
   ],
   "note": "All names of the four scales; spellings added by the loader (CELSIUS) raise KeyError (proved)."
  },
  {
   "property": "C24",
   "status": "proved",
   "theorems": [
    "Unyts.C24_inverted",
    "Unyts.C24_not_always"
   ],
   "note": "When nothing is remembered about the pair and the terms are not both temperatures; limits proved."
  },
  {
   "property": "C25",
   "status": "proved",
   "theorems": [
    "Unyts.C25_nesting",
    "Unyts.C25_work",
    "Unyts.C25_interpreter",
    "Unyts.C25_limit_zero"
   ],
   "note": "For every network, memory and setting; counts _converter/_get_conversion levels, not interpreter frames."
  },
  {
   "property": "C26",
   "status": "proved",
   "theorems": [
    "Unyts.C26_shipped",
    "Unyts.C26_percentage"
   ],
   "note": "C26_percentage: every state a session leaves; C26_shipped: every built-in name of the shipped library (the name None is not found in this way)."
  },
  {
   "property": "C27",
   "status": "proved",
   "theorems": [
    "Unyts.C27_any_name",
    "Unyts.C27_any_product",
    "Unyts.C27_ratios_too"
   ],
   "note": "Names in every reachable state, products when nothing is remembered; also ratios are accepted when the first term converts (proved)."
  },
  {
   "property": "C28",
   "status": "proved",
   "theorems": [
    "Unyts.C28_multi_split_join",
    "Unyts.C28_remove_filters",
    "Unyts.C28_empty_separator_hangs"
   ],
   "note": "Also: removals drop whole parts only; '' as separator never terminates (proved)."
  },
  {
   "property": "C29",
   "status": "proved",
   "theorems": [
    "Unyts.C29_multi_split_order"
   ],
   "note": ""
  },
  {
   "property": "C30",
   "status": "proved",
   "theorems": [
    "Unyts.C30_multi_split_atomic"
   ],
   "note": ""
  },
  {
   "property": "C31",
   "status": "partial",
   "theorems": [
    "Unyts.C31_reduce_units_dimension_partial",
    "Unyts.C31_reduce_units_repeated_fails",
    "Unyts.C31_reduce_units_acceleration_fails"
   ],
   "note": "Proved when no factor is repeated; false otherwise (a*a/a*b -> b, m/s/s*s -> m, both proved): the code reuses an already cancelled index."
  },
  {
   "property": "C32",
   "status": "proved",
   "theorems": [
    "Unyts.C32_reduce_units_reduced",
    "Unyts.C32_reduce_units_idempotent"
   ],
   "note": ""
  },
  {
   "property": "C33",
   "status": "partial",
   "theorems": [
    "Unyts.C33_unbalanced_raises",
    "Unyts.C33_no_parentheses_left",
    "Unyts.C33_reduce_parentheses_meaning_partial",
    "Unyts.C33_nested_divisor_fails",
    "Unyts.C33_second_parenthesis_fails",
    "Unyts.C33_trailing_slash_indexError"
   ],
   "note": "ValueError and absence of parentheses for every string; the meaning is preserved when nothing, or one flat final parenthesis, divides; false for nested divisors and for a parenthesis after a divisor (proved)."
  },
  {
   "property": "C34",
   "status": "proved",
   "theorems": [
    "Unyts.C34_unit_base_power",
    "Unyts.C34_power_of_power",
    "Unyts.C34_unit_power_name",
    "Unyts.C34_power_zero_fails",
    "Unyts.C34_superscript_fails",
    "Unyts.C34_joule_fails"
   ],
   "note": "For every exponent n other than 0 and every m. Superscripts and 'J/kg' raise ValueError (proved)."
  },
  {
   "property": "C35",
   "status": "proved",
   "theorems": [
    "Unyts.C35_inverse_power",
    "Unyts.C35_inverse_name",
    "Unyts.C35_inverse_ratio",
    "Unyts.C35_inverse_mixed_fails",
    "Unyts.C35_inverse_four_parts_fails"
   ],
   "note": "Three shapes of the property; mixed powers and four-part ratios are wrong in the code (proved)."
  },
  {
   "property": "C36",
   "status": "proved",
   "theorems": [
    "Unyts.C36_product_dimless_right",
    "Unyts.C36_product_dimless_left",
    "Unyts.C36_division_dimless",
    "Unyts.C36_addition_dimless"
   ],
   "note": "Also for None, blank and x/x spellings."
  },
  {
   "property": "C37",
   "status": "proved",
   "theorems": [
    "Unyts.C37_product_names",
    "Unyts.C37_division_names",
    "Unyts.C37_names_denote",
    "Unyts.C37_product_convertible",
    "Unyts.C37_square",
    "Unyts.C37_division_convertible",
    "Unyts.C37_product_powers",
    "Unyts.C37_division_powers",
    "Unyts.C37_inverse_product",
    "Unyts.C37_division_cancels_partial",
    "Unyts.C37_repeated_factor_fails"
   ],
   "note": "convertible is a parameter: any behaviour of the converter state. Also powers of convertible names. Division by powers, and cancelling a factor of a product; a factor that occurs twice is removed twice (C37_repeated_factor_fails)."
  },
  {
   "property": "C38",
   "status": "partial",
   "theorems": [
    "Unyts.C38_sum_partial",
    "Unyts.C38_first_unit",
    "Unyts.C38_commutes_partial",
    "Unyts.C38_percentages_fail",
    "Unyts.C38_temperatures_fail",
    "Unyts.C38_dimensionless_first",
    "Unyts.C38_history_fails",
    "Unyts.C38_adds_bfs"
   ],
   "note": "False as stated: percentages are divided by 100 twice (C38_percentages_fail), scales with different zeros are added as amounts (C38_temperatures_fail), and after a first conversion of ratio units the sum comes in the second unit (C38_history_fails). Proved for all other quantities of proportional units in every later state (C38_sum_partial, C38_first_unit, C38_commutes_partial), and that the sum exists with BFS on any network whatever was converted or asked before (C38_adds_bfs)."
  },
  {
   "property": "C39",
   "status": "partial",
   "theorems": [
    "Unyts.C39_coherent",
    "Unyts.C39_session_partial",
    "Unyts.C39_amounts",
    "Unyts.C39_symmetric_partial",
    "Unyts.C39_transitive_partial",
    "Unyts.C39_user_units_fail"
   ],
   "note": "Coherence of the six comparisons in every state (C39_coherent), agreement with amounts, symmetry and transitivity on consistent networks. Fails for units of the user that cannot be converted: raw values are compared (C39_user_units_fail)."
  },
  {
   "property": "C40",
   "status": "partial",
   "theorems": [
    "Unyts.C40_numbers_partial",
    "Unyts.C40_fractions_partial",
    "Unyts.C40_given",
    "Unyts.C40_sum_fails",
    "Unyts.C40_round_fails"
   ],
   "note": "Sums of two percentages and rounding are wrong by a factor of 100 (C40_sum_fails, C40_round_fails); proved with numbers and dimensionless operands. Percentages given as fractions and back (C40_given)."
  },
  {
   "property": "C41",
   "status": "proved",
   "theorems": [
    "Unyts.C41_neg_abs",
    "Unyts.C41_involution"
   ],
   "note": "For every valid quantity of every class."
  },
  {
   "property": "C42",
   "status": "partial",
   "theorems": [
    "Unyts.C42_keeps_partial",
    "Unyts.C42_returns",
    "Unyts.C42_backslash_fails",
    "Unyts.C42_name_fails"
   ],
   "note": "False for names with a backslash (C42_backslash_fails) and with a name argument (C42_name_fails); proved for all other strings, with the conditions under which units returns (C42_returns)."
  },
  {
   "property": "C43",
   "status": "partial",
   "theorems": [
    "Unyts.C43_round_trip_partial",
    "Unyts.C43_network_partial",
    "Unyts.C43_ambiguous_fails"
   ],
   "note": "False for ambiguous names of the base class (C43_ambiguous_fails); proved for quantities of the unit classes on consistent networks and in every later state."
  },
  {
   "property": "C44",
   "status": "proved",
   "theorems": [
    "Unyts.C44_persist",
    "Unyts.C44_history",
    "Unyts.C44_folder_gone",
    "Unyts.C44_not_saved"
   ],
   "note": "set_parallel, set_user_folder and set_fvf are shown not to save (C44_not_saved); JSON round trip trusted."
  },
  {
   "property": "C45",
   "status": "partial",
   "theorems": [
    "Unyts.C45_other_points_partial",
    "Unyts.C45_fails",
    "Unyts.C45_fails_banner",
    "Unyts.C45_missing_ini"
   ],
   "note": "False as stated: dying while parameters.ini is being written makes every later import raise (C45_fails), also while the backup is written if the banner is pending. Proved: the other crash points are safe."
  },
  {
   "property": "C46",
   "status": "proved",
   "theorems": [
    "Unyts.C46_network",
    "Unyts.C46_history",
    "Unyts.C46_dictionary",
    "Unyts.C46_dictionary_fails"
   ],
   "note": "Also: the dictionary of names differs in one combination (C46_dictionary characterises, C46_dictionary_fails shows it). cloudpickle installed."
  },
  {
   "property": "C47",
   "status": "proved",
   "theorems": [
    "Unyts.C47_toggle",
    "Unyts.C47_strings",
    "Unyts.C47_verbose"
   ],
   "note": ""
  },
  {
   "property": "C48",
   "status": "partial",
   "theorems": [
    "Unyts.C48_folder_partial",
    "Unyts.C48_fails"
   ],
   "note": "False as stated for every existing folder except '/': operator precedence in set_user_folder (C48_fails). Proved: exact characterisation, default folder, missing folder."
  },
  {
   "property": "C49",
   "status": "proved",
   "theorems": [
    "Unyts.C49_to_number_str",
    "Unyts.C49_negative_exponent_fails"
   ],
   "note": "Also proved: '1e-5' and '5j' are rejected by the code."
  },
  {
   "property": "C50",
   "status": "proved",
   "theorems": [
    "Unyts.C50_thousands_separator",
    "Unyts.C50_given_separator",
    "Unyts.C50_given_period_fails",
    "Unyts.C50_comma_is_decimal"
   ],
   "note": "Automatic separators and any given separator except the period (rejected by the code, proved)."
  },
  {
   "property": "C51",
   "status": "proved",
   "theorems": [
    "Unyts.C51_parentheses_negative",
    "Unyts.C51_grouped_parentheses_fail"
   ],
   "note": "Does not extend to grouped digits (proved)."
  },
  {
   "property": "C52",
   "status": "partial",
   "theorems": [
    "Unyts.C52_two_way_partial",
    "Unyts.C52_shipped",
    "Unyts.C52_fails"
   ],
   "note": "False as stated: three shipped conversions have none back (C52_shipped gives exactly which, C52_fails). Proved for every dictionary under conditions on the _REVERSE flags (C52_two_way_partial)."
  },
  {
   "property": "C53",
   "status": "partial",
   "theorems": [
    "Unyts.C53_metric_partial",
    "Unyts.C53_data",
    "Unyts.C53_field",
    "Unyts.C53_fails"
   ],
   "note": "Proved for every prefix but K, which is 1000 whatever the order (C53_fails). Metric, data and oil field prefixes, both directions."
  },
  {
   "property": "C54",
   "status": "proved",
   "theorems": [
    "Unyts.C54_absolute",
    "Unyts.C54_cycles",
    "Unyts.C54_chains"
   ],
   "note": "Any chain of any length; decimal constants exact."
  },
  {
   "property": "C55",
   "status": "partial",
   "theorems": [
    "Unyts.C55_pressure_partial",
    "Unyts.C55_fails"
   ],
   "note": "False as stated (C55_fails: psi gauge to psi directly or through absolute psi). Proved for chains that avoid three pairs of gauge short cuts."
  },
  {
   "property": "C56",
   "status": "partial",
   "theorems": [
    "Unyts.C56_exact",
    "Unyts.C56_sound",
    "Unyts.C56_complete_partial",
    "Unyts.C56_fails"
   ],
   "note": "Exact characterisation proved (C56_exact); 'accepts nothing else' proved; 'every product of known names' is false when a known compound name has unknown parts, e.g. 1/s*m (C56_fails)."
  },
  {
   "property": "C57",
   "status": "partial",
   "theorems": [
    "Unyts.C57_exact",
    "Unyts.C57_crash_partial",
    "Unyts.C57_stuck_forever",
    "Unyts.C57_fails",
    "Unyts.C57_delete_cache"
   ],
   "note": "False as stated: exact characterisation of the combinations of files from which the import raises (C57_exact), reached by a crash during a rebuild and permanent (C57_fails, C57_stuck_forever)."
  },
  {
   "property": "C58",
   "status": "partial",
   "theorems": [
    "Unyts.C58_load_partial",
    "Unyts.C58_fails",
    "Unyts.C58_delete_cache",
    "Unyts.C58_path_fails"
   ],
   "note": "False as stated: a start that takes the network from its cache never reads the saved memory (C58_fails), load(path) needs the default file (C58_path_fails). Proved: load() after save()."
  },
  {
   "property": "C59",
   "status": "proved",
   "theorems": [
    "Unyts.C59_undo"
   ],
   "note": ""
  },
  {
   "property": "C60",
   "status": "proved",
   "theorems": [
    "Unyts.C60_loads",
    "Unyts.C60_loadable"
   ],
   "note": ""
  },
  {
   "property": "C61",
   "status": "partial",
   "theorems": [
    "Unyts.C61_chains_partial",
    "Unyts.C61_round_trip_partial",
    "Unyts.C61_fails"
   ],
   "note": "False as stated (C61_fails: UK gallon, gill, ounce). Proved for chains that avoid six pairs of units."
  },
  {
   "property": "C62",
   "status": "proved",
   "theorems": [
    "Unyts.C62_symmetric"
   ],
   "note": ""
  },
  {
   "property": "C63",
   "status": "partial",
   "theorems": [
    "Unyts.C63_apart_partial",
    "Unyts.C63_fails"
   ],
   "note": "False as stated (C63_fails: gallon to weight ounce through 'ounce'). Proved up to eight listed pairs of kinds that share names or conversions."
  },
  {
   "property": "C64",
   "status": "partial",
   "theorems": [
    "Unyts.C64_round_trip_partial",
    "Unyts.C64_transitive_partial",
    "Unyts.C64_one_answer_partial",
    "Unyts.C64_volume_fails",
    "Unyts.C64_there_and_back_partial"
   ],
   "note": "False for volumes (C64_volume_fails: a UK gallon is 128 or 160 fluid ounces). Proved for the units of every quantity except pressure, volume and weight (volumes and weights share the name ounce), under any history of conversions, for single names that are not dates or dimensionless. C64_there_and_back_partial: the answers are found, not assumed, after the import and any conversions and questions."
  },
  {
   "property": "C65",
   "status": "partial",
   "theorems": [
    "Unyts.C65_product_partial",
    "Unyts.C65_square",
    "Unyts.C65_product_apart",
    "Unyts.C65_one_way_fails"
   ],
   "note": "Names of units only (not compound units). False when the conversion exists in one direction only (C65_one_way_fails)."
  },
  {
   "property": "C66",
   "status": "partial",
   "theorems": [
    "Unyts.C66_law_partial",
    "Unyts.C66_unrelated_fails"
   ],
   "note": "Proved for units that are the same or that the library says to convert; units that do not convert are not refused, raw numbers are used (C66_unrelated_fails)."
  },
  {
   "property": "C67",
   "status": "partial",
   "theorems": [
    "Unyts.C67_divides_partial",
    "Unyts.C67_class_fails"
   ],
   "note": "Proved when the class is the first of the dictionary that has the unit; otherwise the class changes (C67_class_fails)."
  },
  {
   "property": "C68",
   "status": "proved",
   "theorems": [
    "Unyts.C68_valid",
    "Unyts.C68_valid_sums",
    "Unyts.C68_valid_to"
   ],
   "note": "All operations modelled; conversions with .to() for quantities of named classes."
  },
  {
   "property": "C69",
   "status": "partial",
   "theorems": [
    "Unyts.C69_not_convertible",
    "Unyts.C69_names_partial",
    "Unyts.C69_ratio_fails"
   ],
   "note": "Proved for names; for ratios the value silently comes back unconverted (C69_ratio_fails)."
  },
  {
   "property": "C70",
   "status": "partial",
   "theorems": [
    "Unyts.C70_never_none",
    "Unyts.C70_names_partial",
    "Unyts.C70_gradients_fail"
   ],
   "note": "Never None with the switch on: all inputs and states. Equality of all other results: names; fails for temperature gradients (C70_gradients_fail)."
  },
  {
   "property": "C71",
   "status": "partial",
   "theorems": [
    "Unyts.C71_sizes_partial",
    "Unyts.C71_transitive_partial",
    "Unyts.C71_other_quantity",
    "Unyts.C71_other_kind",
    "Unyts.C71_sizes_fails"
   ],
   "note": "Proved for quantities whose forms are told apart by their kinds (velocities, data rates, areas per time, ...), for every such network and history; C71_sizes_fails shows what goes wrong beyond: matching ignores signs, and swapped ratios are inverted."
  },
  {
   "property": "C72",
   "status": "partial",
   "theorems": [
    "Unyts.C72_difference_partial",
    "Unyts.C72_reversed_fails"
   ],
   "note": "Proved when the second unit converts to the first; when only the first converts to the second the sign is reversed (C72_reversed_fails)."
  },
  {
   "property": "C73",
   "status": "partial",
   "theorems": [
    "Unyts.C73_names_partial",
    "Unyts.C73_ratio_fails",
    "Unyts.C73_self_partial",
    "Unyts.C73_self_fails"
   ],
   "note": "Proved for names; false for ratios (C73_ratio_fails). A unit and itself: every unit, products and ratios included, after questions about names (C73_self_partial); false after a question about ratios that ran into the recursion limit (C73_self_fails)."
  },
  {
   "property": "C74",
   "status": "partial",
   "theorems": [
    "Unyts.C74_ratio_partial",
    "Unyts.C74_unit_fails"
   ],
   "note": "The number is right (C74_ratio_partial); the unit of a ratio of equal units is a new user unit a/a (C74_unit_fails)."
  },
  {
   "property": "C75",
   "status": "proved",
   "theorems": [
    "Unyts.C75_undisturbed"
   ],
   "note": "All modelled operations, also when they raise."
  },
  {
   "property": "C76",
   "status": "partial",
   "theorems": [
    "Unyts.C76_standard_partial",
    "Unyts.C76_light_year_fails",
    "Unyts.C76_exact"
   ],
   "note": "False for the light year (C76_light_year_fails: off by a factor 60). Proved for 63 names of lengths, times, areas, energies, amounts of data, velocities and forces. C76_exact: the answer is found, not assumed."
  },
  {
   "property": "C77",
   "status": "partial",
   "theorems": [
    "Unyts.C77_exponent",
    "Unyts.C77_decimals",
    "Unyts.C77_scientific",
    "Unyts.C77_negative_exponent_fails",
    "Unyts.C77_english_thousands_fails"
   ],
   "note": "Positive exponents, decimals with either mark, scientific notation; '1e-5' is rejected and '1,234.5' is read as 1.2345 (both proved). Numbers are exact rationals: float rounding is not modelled."
  },
  {
   "property": "C78",
   "status": "partial",
   "theorems": [
    "Unyts.C78_is_unit_partial",
    "Unyts.C78_composed",
    "Unyts.C78_products",
    "Unyts.C78_only",
    "Unyts.C78_unlisted_fails"
   ],
   "note": "Exact for names; three built-in units (REm³, UKounce, USounce) are refused (proved)."
  },
  {
   "property": "C79",
   "status": "proved",
   "theorems": [
    "Unyts.C79_any_dictionary",
    "Unyts.C79_shipped",
    "Unyts.C79_loads"
   ],
   "note": "For any dictionary that has the needed kinds, and for the shipped one, whose loading is proved to succeed."
  },
  {
   "property": "C80",
   "status": "partial",
   "theorems": [
    "Unyts.C80_one_quantity_partial",
    "Unyts.C80_ratio_partial",
    "Unyts.C80_shared_fails"
   ],
   "note": "Names shared by two quantities are exactly: ounces (Volume, Weight), F (Temperature, Capacitance), six gradients (Density, PressureGradient), ohms (Resistance, Impedance): proved complete and real."
  },
  {
   "property": "C81",
   "status": "partial",
   "theorems": [
    "Unyts.C81_listed",
    "Unyts.C81_class_partial",
    "Unyts.C81_ratio_partial",
    "Unyts.C81_ambiguous",
    "Unyts.C81_farad_fails",
    "Unyts.C81_impedance_fails"
   ],
   "note": "Names of one quantity, ratios of two names without signs; 'F' is a Temperature and every impedance a Resistance (proved)."
  },
  {
   "property": "C82",
   "status": "partial",
   "theorems": [
    "Unyts.C82_power_partial",
    "Unyts.C82_zero_division",
    "Unyts.C82_square",
    "Unyts.C82_inverse_partial",
    "Unyts.C82_percent",
    "Unyts.C82_inverse_fails",
    "Unyts.C82_exponent_fails",
    "Unyts.C82_zero_fails"
   ],
   "note": "Units that are names or powers of names. False for 1/q of a power (C82_inverse_fails: 'ft2-1' cannot be read afterwards), for q ** Dimensionless(n) (C82_exponent_fails: the unit is kept), and for q ** 0 in the shipped library (C82_zero_fails: a user unit called 'Dimensionless')."
  },
  {
   "property": "C83",
   "status": "partial",
   "theorems": [
    "Unyts.C83_ratio_partial",
    "Unyts.C83_number",
    "Unyts.C83_zero",
    "Unyts.C83_compound_fails",
    "Unyts.C83_inverse_fails"
   ],
   "note": "False when the second unit is a ratio (C83_compound_fails) and for a plain number over a quantity (C83_inverse_fails: raises). Proved for a second unit that is a name and no repeated factors."
  },
  {
   "property": "C84",
   "status": "partial",
   "theorems": [
    "Unyts.C84_unique",
    "Unyts.C84_round_partial",
    "Unyts.C84_builtin_partial",
    "Unyts.C84_again_partial",
    "Unyts.C84_percent_fails"
   ],
   "note": "False for percentages (C84_percent_fails: the rounded fraction is taken as the percentage). Exact rationals: binary floating point is not modelled."
  },
  {
   "property": "C85",
   "status": "partial",
   "theorems": [
    "Unyts.C85_default_fails",
    "Unyts.C85_rounds_partial",
    "Unyts.C85_close_partial",
    "Unyts.C85_percent_fails"
   ],
   "note": "Without a precision equals never answers (C85_default_fails: int(None)); a percentage and a number fail (C85_percent_fails). Proved for quantities of the unit classes in a unit that their class lists first."
  },
  {
   "property": "C86",
   "status": "partial",
   "theorems": [
    "Unyts.C86_product_partial",
    "Unyts.C86_quotient_partial",
    "Unyts.C86_others",
    "Unyts.C86_class_fails",
    "Unyts.C86_unit_fails"
   ],
   "note": "The amount, and the unit when the library finds a conversion; the class is often UserUnits (C86_class_fails), and a product without conversion is left as it is (C86_unit_fails)."
  },
  {
   "property": "C87",
   "status": "partial",
   "theorems": [
    "Unyts.C87_one_hub",
    "Unyts.C87_connected_partial",
    "Unyts.C87_apart_fails"
   ],
   "note": "False for eleven quantities (C87_apart_fails: a Hertz and a turn per minute, a centipoise and a Poise do not convert). Proved for 21 quantities; every unit converts to exactly one of 53 hubs."
  },
  {
   "property": "C88",
   "status": "partial",
   "theorems": [
    "Unyts.C88_convertible_apart",
    "Unyts.C88_convertible_exactly_partial",
    "Unyts.C88_answers_partial",
    "Unyts.C88_exactly_partial",
    "Unyts.C88_quantity_partial",
    "Unyts.C88_convertible_partial",
    "Unyts.C88_bulk_partial",
    "Unyts.C88_convertible_bulk_partial",
    "Unyts.C88_dram_fails"
   ],
   "note": "Single names of quantities without conversions that depend on fvf or density (not densities, pressure gradients, dimensionless, dates); volumes and weights with a formation volume factor set (C88_bulk_partial) but for the drams, where the default search finds no conversion although one exists (C88_dram_fails: a weight ounce to 'dr'); BFS, lean and hybrid search; calls before are conversions and questions. convertible says yes for all these pairs whatever was asked before (C88_convertible_partial, C88_convertible_bulk_partial). C88_convertible_exactly_partial: convertible says yes exactly where conversions join the two names."
  },
  {
   "property": "C89",
   "status": "partial",
   "theorems": [
    "Unyts.C89_convertible_partial",
    "Unyts.C89_refuses_partial",
    "Unyts.C89_capacitance_fails"
   ],
   "note": "False where quantities share a name (C89_capacitance_fails: a Farad is converted into degrees Celsius). Proved up to the merged kinds of C63, for single names of ordinary quantities. C89_convertible_partial: convertible says no as well, after any history. C88_convertible_apart: the same for every class but numbers, percentages and dates, where no conversions join the two names."
  },
  {
   "property": "C90",
   "status": "partial",
   "theorems": [
    "Unyts.C90_bulk_partial",
    "Unyts.C90_volume_partial",
    "Unyts.C90_volumes_partial",
    "Unyts.C90_prefixes_partial"
   ],
   "note": "Single prefixed names. Any two prefixes, exactly: every unit but volumes and gauge bars (C90_prefixes_partial, C90_bulk_partial). Volumes: exactly between a prefix and none (C90_volume_partial), to one part in a million between two prefixes (C90_volumes_partial: the volume network contradicts itself slightly, C61). The prefix 'K' is not the prefix kilo (C53)."
  },
  {
   "property": "C91",
   "status": "proved",
   "theorems": [
    "Unyts.C91_temperature"
   ],
   "note": "21 names of the four scales."
  },
  {
   "property": "C92",
   "status": "proved",
   "theorems": [
    "Unyts.C92_same",
    "Unyts.C92_path",
    "Unyts.C92_text"
   ],
   "note": "Ordinary single names (not dimensionless, not dates, not a volume and a weight)."
  },
  {
   "property": "C93",
   "status": "partial",
   "theorems": [
    "Unyts.C93_there_and_back",
    "Unyts.C93_sizes",
    "Unyts.C93_exact",
    "Unyts.C93_tonne_fails"
   ],
   "note": "27 names with their standard sizes (C93_exact); there and back for every two joined built-in weights. Single names; under lean search a weight ounce to a dram is excluded (it is not found, C88_dram_fails). C93_tonne_fails: 't' is a long ton, a grain 64.7989 mg."
  },
  {
   "property": "C94",
   "status": "partial",
   "theorems": [
    "Unyts.C94_direct",
    "Unyts.C94_function",
    "Unyts.C94_found",
    "Unyts.C94_shortest",
    "Unyts.C94_dfs_fails",
    "Unyts.C94_shipped"
   ],
   "note": "Direct conversions: any network, any history, BFS, lean_BFS and hybrid_BFS (C94_direct, C94_function); found for BFS and hybrid_BFS (C94_found). Fewest steps: BFS on any network (C94_shortest), every search but DFS on the shipped library (C94_shipped). Single ordinary names. DFS does take detours: C94_dfs_fails."
  },
  {
   "property": "C95",
   "status": "partial",
   "theorems": [
    "Unyts.C95_there_and_back",
    "Unyts.C95_through",
    "Unyts.C95_exact",
    "Unyts.C95_psi",
    "Unyts.C95_bars_fails"
   ],
   "note": "Pressures outside gaugeNames, names without '/', any history, any search but DFS; 19 exact sizes (C95_exact), psi to one part in 10^10 (C95_psi). C95_bars_fails: 'bars' is a gauge pressure while 'bar' is absolute, and the factor bar to psi misses a digit."
  },
  {
   "property": "C96",
   "status": "partial",
   "theorems": [
    "Unyts.C96_parts",
    "Unyts.C96_exact"
   ],
   "note": "Any number of factors in the same order, no chain of conversions joining the two whole units (those go through the network: C76, C88), no temperatures, not two ratios of the same two units in the opposite order (C15). Compound units in the history only without the cache."
  },
  {
   "property": "C97",
   "status": "partial",
   "theorems": [
    "Unyts.C97_program_partial",
    "Unyts.C97_compare_partial",
    "Unyts.C97_sizes_partial"
   ],
   "note": "Shipped library, in any order and nesting. C97_program_partial/C97_compare_partial: units with standard sizes of nine classes, exact amounts; C97_sizes_partial: every single name of 23 classes with proportional units, joined by built-in conversions, by sizes fixed once for all processes. Not covered: temperatures and gauge pressures (no common zero), volumes and densities, ratio names, names shared by two classes, products and quotients of quantities, user units in the dictionary of classes."
  },
  {
   "property": "C98",
   "status": "partial",
   "theorems": [
    "Unyts.C98_quantity_partial",
    "Unyts.C98_units_partial",
    "Unyts.C98_missing",
    "Unyts.C98_forgotten_fails",
    "Unyts.C98_percent_fails"
   ],
   "note": "C98_quantity_partial, C98_units_partial: units with standard sizes of nine classes on the shipped library after any history; C98_missing: any arguments. Fails for percentages, which hold their fraction (C98_percent_fails: convert(units(50,'percentage'),'fraction') is 0.005), and the unit of a quantity given with two units is forgotten (C98_forgotten_fails)."
  },
  {
   "property": "C99",
   "status": "partial",
   "theorems": [
    "Unyts.C99_copy_partial",
    "Unyts.C99_two_units",
    "Unyts.C99_percent_fails",
    "Unyts.C99_constructor_fails",
    "Unyts.C99_bare_fails"
   ],
   "note": "C99_copy_partial: single built-in names of one class; C99_two_units: units(q, u) is a TypeError. Fails for percentages (C99_percent_fails), for the constructors, which take only the number (C99_constructor_fails: Length(units(2,'km'),'ft') is two feet), and units(5) makes a unit of the user called 'Dimensionless' (C99_bare_fails)."
  },
  {
   "property": "C100",
   "status": "partial",
   "theorems": [
    "Unyts.C100_quotient_partial",
    "Unyts.C100_zero_partial",
    "Unyts.C100_floor_partial",
    "Unyts.C100_product_partial",
    "Unyts.C100_class_partial",
    "Unyts.C100_square_partial",
    "Unyts.C100_ratio_partial"
   ],
   "note": "Units written as one name of one class, volumes and weights included; same-class product and quotient for the nine tables of standard sizes. Classes with products of their own (divTo / mulTo) are in C43. The quotient of two quantities of one class is written in the unit 'a/a'."
  },
  {
   "property": "C101",
   "status": "partial",
   "theorems": [
    "Unyts.C101_question_partial",
    "Unyts.C101_second_question_fails",
    "Unyts.C101_ratio_partial",
    "Unyts.C101_after_question_fails",
    "Unyts.C101_quotient_partial"
   ],
   "note": "Proved after any questions about single names, for ratios of units with standard sizes not joined by conversions as a whole, with the cache on; convertible for any number of factors. False in general: asked a second time, convertible says no about the same two ratios, and a quantity is refused the conversion after the question said yes (C101_second_question_fails, C101_after_question_fails)."
  },
  {
   "property": "C102",
   "status": "partial",
   "theorems": [
    "Unyts.C102_sizes",
    "Unyts.C102_exact",
    "Unyts.C102_reservoir",
    "Unyts.C102_formation",
    "Unyts.C102_gill_fails"
   ],
   "note": "67 volumes and 10 reservoir volumes with their standard sizes, single names, with the answer found (C102_exact, C102_reservoir, C102_formation) and in any reachable state (C102_sizes). Missing: UK measures below the gallon, whose conversions contradict each other (C102_gill_fails), so the property fails for them; the sizes hold to 1e-6 and not exactly (C102_gill_fails: a cubic meter is 6.289814 barrels)."
  },
  {
   "property": "C103",
   "status": "partial",
   "theorems": [
    "Unyts.C103_rates",
    "Unyts.C103_question_partial",
    "Unyts.C103_second_question_fails",
    "Unyts.C103_quantity_partial",
    "Unyts.C103_after_question_fails",
    "Unyts.C103_quotient_partial"
   ],
   "note": "Factors in the same order, no chain of conversions joining the two whole units, volumes of C102 and units with a standard size; convert after any questions about single names, or after anything without the cache (C103_rates); quantities, their quotients and convertible with the cache on after questions about single names. False in general: C103_second_question_fails, C103_after_question_fails."
  },
  {
   "property": "C104",
   "status": "partial",
   "theorems": [
    "Unyts.C104_spellings_partial",
    "Unyts.C104_convertible_partial",
    "Unyts.C104_program_partial",
    "Unyts.C104_joined",
    "Unyts.C104_respelled_partial",
    "Unyts.C104_volume_partial"
   ],
   "note": "All quantities but Density, PressureGradient, Dimensionless, Percentage, Date; names without '/' and '*'; whatever was asked before. Any two spellings, exactly: all but volumes and gauge pressures (C104_spellings_partial, C104_convertible_partial, C104_program_partial). A name and its spelling, exactly: also volumes and gauge pressures (C104_respelled_partial). Any two spellings of a volume to one part in a million (C104_volume_partial), but for UK measures below the gallon. Names that are volumes and weights (ounces) need a density. Every spelling is joined to its name in one step, both ways (C104_joined). 'psi' and 'bar' are listed both as gauge and as absolute pressures and are taken as absolute only."
  },
  {
   "property": "C105",
   "status": "partial",
   "theorems": [
    "Unyts.C105_constants",
    "Unyts.C105_named_partial"
   ],
   "note": "Every constant: class, unit, value one, nothing changed (C105_constants). The constant converted to the unit of its own name is one: all but the ohm (a name of two quantities); constants whose name is no unit ('torr', 'watt') have nothing to convert to."
  },
  {
   "property": "C106",
   "status": "partial",
   "theorems": [
    "Unyts.C106_direct",
    "Unyts.C106_two_steps",
    "Unyts.C106_joined",
    "Unyts.C106_exact_partial",
    "Unyts.C106_microsip_fails",
    "Unyts.C106_quantity_partial"
   ],
   "note": "Generic on any network: direct pair -> the direct conversion; one unit between -> a path of at most two conversions; BFS/hybrid -> whenever joined. On the shipped library the sizes are exact for the listed names (Spec/Compounds: 29 lists); the default lean search misses some compound pairs farther apart (not listed: 'cm*cm' to 'm*m', 'kW*h' to 'W*h'), densities and pressures are not listed. False for the microsip (C106_microsip_fails): 'usip' is listed as a spelling of '1/psi'. For quantities: C106_quantity_partial (q.to(u) of the same lists)."
  },
  {
   "property": "C107",
   "status": "partial",
   "theorems": [
    "Unyts.C107_unlike",
    "Unyts.C107_sum_unlike",
    "Unyts.C107_lost_fails",
    "Unyts.C107_again_fails",
    "Unyts.C107_minus_fails"
   ],
   "note": "Different classes: the tuple of the terms, any number, any state (C107_unlike, C107_sum_unlike). False when the class is already in the tuple: every other entry loses its unit (`result += each`, C107_lost_fails), then nothing more can be added (C107_again_fails); a quantity minus a tuple forgets the signs (C107_minus_fails)."
  },
  {
   "property": "C108",
   "status": "partial",
   "theorems": [
    "Unyts.C108_sum_partial",
    "Unyts.C108_order_partial",
    "Unyts.C108_sizes_partial"
   ],
   "note": "On the shipped library: exact for the nine tables of standard sizes, and by sizes common to all histories for every single name of the 23 classes of proportional units (C108_sizes_partial), any list, any history. Other units (offset scales, compound names) are not covered."
  },
  {
   "property": "C109",
   "status": "partial",
   "theorems": [
    "Unyts.C109_max_partial",
    "Unyts.C109_min_partial",
    "Unyts.C109_sorted_partial",
    "Unyts.C109_sizes_partial",
    "Unyts.C109_mixed"
   ],
   "note": "On the shipped library: exact for the nine tables of standard sizes, and by sizes common to all histories for every single name of the 23 classes of proportional units (C109_sizes_partial), any list, any history; temperatures are in C116. Quantities of different classes cannot be ordered: TypeError (C109_mixed)."
  },
  {
   "property": "C110",
   "status": "partial",
   "theorems": [
    "Unyts.Gui.C110_either",
    "Unyts.Gui.C110_unit",
    "Unyts.Gui.C110_spaces",
    "Unyts.Gui.C110_message_fails"
   ],
   "note": "Number and unit in either box, unit alone, spaces: proved for every way of reading numbers. False for a row that is not understood: the message is overwritten at once with 'None' (C110_message_fails)."
  },
  {
   "property": "C111",
   "status": "proved",
   "theorems": [
    "Unyts.Gui.C111_total",
    "Unyts.Gui.C111_shows",
    "Unyts.Gui.C111_back",
    "Unyts.Gui.C111_none",
    "Unyts.Gui.C111_error",
    "Unyts.Gui.C111_empty",
    "Unyts.Gui.C111_calls",
    "Unyts.Gui.C111_exact",
    "Unyts.Gui.C111_return"
   ],
   "note": "`is_numeric`/`get_number` are parameters; a text that is no number given to `convert` is a ValueError in the model. Exact answers on the shipped library for the nine tables of standard sizes."
  },
  {
   "property": "C112",
   "status": "partial",
   "theorems": [
    "Unyts.Gui.C112_number",
    "Unyts.Gui.C112_unit",
    "Unyts.Gui.C112_agree",
    "Unyts.Gui.C112_cancel_fails",
    "Unyts.Gui.C112_refused_fails",
    "Unyts.Gui.C112_proposal",
    "Unyts.Gui.C112_density",
    "Unyts.Gui.C112_density_unit"
   ],
   "note": "Accepted answers, refused answers, the proposed value: proved. False when the dialog is cancelled: False is stored and UnboundLocalError raised (C112_cancel_fails); after a refused unit without an earlier factor the converter keeps 1 (C112_refused_fails)."
  },
  {
   "property": "C113",
   "status": "partial",
   "theorems": [
    "Unyts.Gui.C113_time_partial",
    "Unyts.Gui.C113_minutes_fails",
    "Unyts.Gui.C113_hours_fails"
   ],
   "note": "Up to a minute. False beyond: the seconds are the total minus the minutes (two minutes are '2:118'), and hours are never shown because `> 60` is tested first."
  },
  {
   "property": "C114",
   "status": "partial",
   "theorems": [
    "Unyts.Gui.C114_within",
    "Unyts.Gui.C114_all",
    "Unyts.Gui.C114_short",
    "Unyts.Gui.C114_next_fails"
   ],
   "note": "While the same path is shown. False for the next path: the place reached in the old one is kept, so part of a shorter path may be shown, from its middle (C114_next_fails)."
  },
  {
   "property": "C115",
   "status": "partial",
   "theorems": [
    "Unyts.C115_shift_partial",
    "Unyts.C115_back_partial",
    "Unyts.C115_order_partial",
    "Unyts.C115_names_fails",
    "Unyts.C115_fraction_fails",
    "Unyts.C115_dates_fails",
    "Unyts.C115_only_times"
   ],
   "note": "Proved for whole numbers of the units NumPy knows: of the built-in times only h, s and the prefixed seconds. False otherwise: 'day', 'hour', 'year', ... raise TypeError (C115_names_fails), fractions ValueError (C115_fraction_fails), the difference of two dates is None and comparing dates raises AttributeError (C115_dates_fails). `time + date` gives a tuple and is not modelled."
  },
  {
   "property": "C116",
   "status": "partial",
   "theorems": [
    "Unyts.C116_to",
    "Unyts.C116_tour",
    "Unyts.C116_compare",
    "Unyts.C116_max",
    "Unyts.C116_min",
    "Unyts.C116_sorted",
    "Unyts.C116_add_fails"
   ],
   "note": "Changes of scale, comparisons, max, min, sorted: proved for every name of the four scales. False for sums: the readings are added on the scale of the first, so the sum is off by the zero of that scale and depends on the order (C116_add_fails: 20 Celsius + 1 Kelvin is 21 kelvins, 1 Kelvin + 20 Celsius is 294.15)."
  },
  {
   "property": "C117",
   "status": "proved",
   "theorems": [
    "Unyts.C117_elements",
    "Unyts.C117_one_by_one",
    "Unyts.C117_exact"
   ],
   "note": "C117_elements without conditions; C117_exact gives the exact numbers for the units with a standard size on the shipped library. Where an element divides by zero NumPy would warn and put infinity; the model has the exception of the number."
  },
  {
   "property": "C118",
   "status": "partial",
   "theorems": [
    "Unyts.C118_elements",
    "Unyts.C118_compare",
    "Unyts.C118_item",
    "Unyts.C118_lengths",
    "Unyts.C118_scalar_item_fails",
    "Unyts.C118_iter",
    "Unyts.C118_iter_fails",
    "Unyts.C118_exact_partial",
    "Unyts.C118_exact_compare_partial",
    "Unyts.C118_sizes_partial"
   ],
   "note": "C118_elements, C118_compare, C118_item, C118_lengths without conditions on the state. Partial: the amounts are proved exact for units with a standard size and proportional classes; `to` of plain numbers and percentages, and products, are not in the array programs. False: q[0] of a quantity of one number raises TypeError though len(q) is 1 (C118_scalar_item_fails); iterating gives bare numbers, for percentages not those shown (C118_iter_fails)."
  },
  {
   "property": "C119",
   "status": "partial",
   "theorems": [
    "Unyts.C119_set_or_unchanged",
    "Unyts.C119_stored",
    "Unyts.C119_converted",
    "Unyts.C119_refused",
    "Unyts.C119_get",
    "Unyts.C119_sizes_partial",
    "Unyts.C119_quantity_partial",
    "Unyts.C119_nothing_else",
    "Unyts.C119_last",
    "Unyts.C119_given",
    "Unyts.C119_given_quantity",
    "Unyts.C119_weight",
    "Unyts.C119_history",
    "Unyts.C119_round_trip"
   ],
   "note": "Arguments, refusals, what stays, get_density: every state. Once a density is set, whatever is asked and whatever densities are set in any order, the library is as if the last one had been set first (C119_last), and conversions other than between volumes and weights do not look at it (C119_nothing_else): every state. Amounts after import, to one part in a million: every volume to every weight with a standard size (C119_weight, C119_history). A density given in any weight per volume, as a number or as a quantity, is stored in g/cm3 (C119_given, C119_given_quantity; C119_sizes_partial and C119_quantity_partial are steps to them). Partial: C119_given asks that only conversions between single names came before. A zero or negative density is accepted; a weight to a volume raises (C21)."
  },
  {
   "property": "C120",
   "status": "partial",
   "theorems": [
    "Unyts.C120_set",
    "Unyts.C120_used",
    "Unyts.C120_refused_fails",
    "Unyts.C120_get_fails"
   ],
   "note": "The number set, used by the converter in both directions, and given back by get_fvf to four decimals. False: a text that is no number, or a NumPy number, is ignored without an error and kept in the settings only (C120_refused_fails); get_fvf raises AttributeError when no factor is set, even when the settings hold a saved one (C120_get_fails); factors of zero and below are accepted."
  },
  {
   "property": "C121",
   "status": "partial",
   "theorems": [
    "Unyts.Gui.C121_opens_partial",
    "Unyts.Gui.C121_opens_fails",
    "Unyts.Gui.C121_honest",
    "Unyts.Gui.C121_chosen",
    "Unyts.Gui.C121_repeat",
    "Unyts.Gui.C121_rebuild_partial",
    "Unyts.Gui.C121_rebuild_fails"
   ],
   "note": "Proved: when the window opens (exactly), honest ticks for the algorithm, cache, verbose, path and parallel entries over every history, the algorithm chosen, 'repeat search'. False: start_gui() raises AttributeError after set_parallel('processes') (C121_opens_fails); 'Rebuild on next start' is shown off when it is on, and afterwards always the opposite of the setting (C121_rebuild_partial, C121_rebuild_fails)."
  },
  {
   "property": "C122",
   "status": "proved",
   "theorems": [
    "Unyts.C122_text",
    "Unyts.C122_read",
    "Unyts.C122_tells",
    "Unyts.C122_round_trip"
   ],
   "note": "For names without backslash, line ends or both kinds of quotes (C42_backslash_fails shows what a backslash does). How numbers are written is a parameter that `number` inverts; floats are exact, so the rounding of a percentage stored divided by 100 is not seen."
  },
  {
   "property": "C123",
   "status": "partial",
   "theorems": [
    "Unyts.C123_values_partial",
    "Unyts.C123_units_partial",
    "Unyts.C123_fails"
   ],
   "note": "The assignments change one field and nothing else. False: any name is accepted as unit of any class, and the number of a percentage is taken as a fraction (C123_fails)."
  },
  {
   "property": "C124",
   "status": "partial",
   "theorems": [
    "Unyts.C124_marks",
    "Unyts.C124_negative",
    "Unyts.C124_refused",
    "Unyts.C124_groups_fail"
   ],
   "note": "Reading: every number, every two signs that are no digits, signs, parentheses, capitals, 'e' or 'j', given or found (C124_marks, C124_negative). Refusal: every group after the first and before the decimal mark (C124_refused). False otherwise: separators among the decimals are dropped, a first group of any length is accepted, and '(1,234)' is refused although '(1,234.5)' and '-1,234' are read (C124_groups_fail). Exact rationals: binary floating point is not modelled."
  },
  {
   "property": "C125",
   "status": "proved",
   "theorems": [
    "Unyts.C125_refused",
    "Unyts.C125_quantity",
    "Unyts.C125_accepted",
    "Unyts.C125_called",
    "Unyts.C125_number_accepted"
   ],
   "note": "Refusals exactly characterised, and unchanged state (C125_refused); quantities as texts (C125_quantity); the frame (C125_accepted); the calls afterwards, with BFS, names without a direct conversion and nothing remembered, or the cache off (C125_called; the limits for other states are those of C09). The late refusal is C125_number_accepted."
  },
  {
   "property": "C126",
   "status": "partial",
   "theorems": [
    "Unyts.C126_kept",
    "Unyts.C126_killed_closing",
    "Unyts.C126_cache_off",
    "Unyts.C126_memory_on",
    "Unyts.C126_reload",
    "Unyts.C126_import",
    "Unyts.C126_import_fails",
    "Unyts.C126_fails"
   ],
   "note": "Proved for every history of starts, killed at any of their writes or not, and of settings (C126_kept, C126_memory_on), with cloudpickle installed and one user folder. False when the closing itself is interrupted, since the file is emptied first (C126_fails, C126_killed_closing says what is left), and for an import when nothing was ever saved in the folder (C126_import_fails). After a reload opening the window removes all caches (C126_reload)."
  },
  {
   "property": "C127",
   "status": "proved",
   "theorems": [
    "Unyts.C127_alone",
    "Unyts.C127_set_unit"
   ],
   "note": "Single names that are neither dates, dimensionless names nor percentages (those are given any unit by design, C26, C27), with BFS, lean_BFS or hybrid_BFS at the time of the question."
  },
  {
   "property": "C128",
   "status": "partial",
   "theorems": [
    "Unyts.C128_shares_partial",
    "Unyts.C128_sum_fails"
   ],
   "note": "Every calculation but those that add or subtract two percentages (false: C128_sum_fails, ten percent and twenty percent are 0.3 percent) or fractions under two names; comparisons, powers and remainders are not part of the calculations. The library is left as it is."
  },
  {
   "property": "C129",
   "status": "partial",
   "theorems": [
    "Unyts.C129_found_partial",
    "Unyts.C129_sizes_partial",
    "Unyts.C129_temperatures",
    "Unyts.C129_mixed_fails",
    "Unyts.C129_number_fails"
   ],
   "note": "Exact for the nine tables of standard sizes, by sizes common to all histories for every single name of the 23 classes of proportional units, exact for temperatures, any list and any history. False in a list with an entry of another class before: TypeError (C129_mixed_fails); a number is found where any unit has that number (C129_number_fails). An entry that is the object itself, which Python takes unasked, is compared like the others."
  },
  {
   "property": "C130",
   "status": "partial",
   "theorems": [
    "Unyts.C130_share",
    "Unyts.C130_formulas_partial",
    "Unyts.C130_sizes_partial"
   ],
   "note": "C130_share: every quantity of every class, every share, in every state of the shipped library. Within computations: units with standard sizes of nine classes, exact amounts, and every single name of 23 classes with proportional units by sizes common to all histories. The shares are those of C128 (no sums of two percentages)."
  },
  {
   "property": "C131",
   "status": "proved",
   "theorems": [
    "Unyts.C131_each",
    "Unyts.C131_shares",
    "Unyts.C131_distributes",
    "Unyts.C131_quotients",
    "Unyts.C131_numbers",
    "Unyts.C131_not_divided"
   ],
   "note": "C131_each: every quantity, tuple and state, with errors. C131_shares, C131_distributes, C131_quotients, C131_numbers: what the entries are, for every class and every share, in every state of the shipped library (numbers: every state). C131_not_divided: the error. Entries that are tuples themselves or arrays are not modelled."
  },
  {
   "property": "C132",
   "status": "partial",
   "theorems": [
    "Unyts.C132_numbers",
    "Unyts.C132_zero",
    "Unyts.C132_whole",
    "Unyts.C132_apart_partial",
    "Unyts.C132_sizes_partial"
   ],
   "note": "Numbers: every class, unit and state (C132_numbers, C132_zero). Quantities: units with standard sizes of nine classes, exact amounts, and every single name of 23 classes with proportional units by sizes common to all histories; other units under the hypotheses of C66. C132_whole: what the specification of being taken apart comes to."
  },
  {
   "property": "C133",
   "status": "partial",
   "theorems": [
    "Unyts.C133_mean_partial",
    "Unyts.C133_sizes_partial",
    "Unyts.C133_temperatures"
   ],
   "note": "Units with standard sizes of nine classes, exact amounts, with the bounds; every single name of 23 classes with proportional units by sizes common to all histories; temperatures under every name of the scales (C133_temperatures: the mean is exact although sums of temperatures are not, C116). Gauge pressures and names that are ratios are not covered."
  },
  {
   "property": "C134",
   "status": "proved",
   "theorems": [
    "Unyts.C134_truth",
    "Unyts.C134_amount_fails"
   ],
   "note": "C134_truth: every quantity and list. C134_amount_fails records that this differs from numbers: no metres are true, 5 percent false."
  }
 ]
}