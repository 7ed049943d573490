{
 "claims": [
  {
   "property": "C01",
   "status": "proved",
   "theorems": [
    "BoolParser.C01_and",
    "BoolParser.C01_or",
    "BoolParser.C01_not",
    "BoolParser.C01_paren",
    "BoolParser.C01_operands",
    "BoolParser.C01_nodes"
   ],
   "note": ""
  },
  {
   "property": "C02",
   "status": "proved",
   "theorems": [
    "BoolParser.C02_not_equal",
    "BoolParser.C02_not_equal_default",
    "BoolParser.C02_values"
   ],
   "note": ""
  },
  {
   "property": "C03",
   "status": "proved",
   "theorems": [
    "BoolParser.C03_dual",
    "BoolParser.C03_dual_any",
    "BoolParser.C03_complement"
   ],
   "note": ""
  },
  {
   "property": "C04",
   "status": "proved",
   "theorems": [
    "BoolParser.C04_numbers"
   ],
   "note": ""
  },
  {
   "property": "C05",
   "status": "proved",
   "theorems": [
    "BoolParser.C05_trichotomy_numbers",
    "BoolParser.C05_trichotomy_strings",
    "BoolParser.C05_trichotomy_dates",
    "BoolParser.C05_trichotomy_datetimes",
    "BoolParser.C05_transitive_numbers",
    "BoolParser.C05_transitive_strings",
    "BoolParser.C05_transitive_dates",
    "BoolParser.C05_transitive_datetimes",
    "BoolParser.C05_mixed_kinds"
   ],
   "note": "Trichotomy and transitivity hold within each kind (numbers, texts, dates, date-times); C05_mixed_kinds shows that equality is not transitive across kinds."
  },
  {
   "property": "C06",
   "status": "proved",
   "theorems": [
    "BoolParser.C06_strings",
    "BoolParser.C06_equal",
    "BoolParser.C06_dates_differ"
   ],
   "note": ""
  },
  {
   "property": "C07",
   "status": "proved",
   "theorems": [
    "BoolParser.C07_dates",
    "BoolParser.C07_datetimes"
   ],
   "note": ""
  },
  {
   "property": "C08",
   "status": "proved",
   "theorems": [
    "BoolParser.C08_versions",
    "BoolParser.C08_equal",
    "BoolParser.C08_decimal_literal"
   ],
   "note": ""
  },
  {
   "property": "C09",
   "status": "proved",
   "theorems": [
    "BoolParser.C09_range",
    "BoolParser.C09_conjunction",
    "BoolParser.C09_numbers",
    "BoolParser.C09_missing",
    "BoolParser.C09_differs"
   ],
   "note": ""
  },
  {
   "property": "C10",
   "status": "proved",
   "theorems": [
    "BoolParser.C10_values",
    "BoolParser.C10_sequential",
    "BoolParser.C10_texts",
    "BoolParser.C10_invariant",
    "BoolParser.C10_order_matters"
   ],
   "note": ""
  },
  {
   "property": "C11",
   "status": "proved",
   "theorems": [
    "BoolParser.C11_not_in"
   ],
   "note": ""
  },
  {
   "property": "C12",
   "status": "proved",
   "theorems": [
    "BoolParser.C12_contains_all",
    "BoolParser.C12_contains_any",
    "BoolParser.C12_invariant",
    "BoolParser.C12_not_a_list",
    "BoolParser.C12_set_fails"
   ],
   "note": "Includes the failing cases: a field that is no list, and a Set (C12_set_fails)."
  },
  {
   "property": "C13",
   "status": "proved",
   "theorems": [
    "BoolParser.C13_mixed_items",
    "BoolParser.C13_items"
   ],
   "note": ""
  },
  {
   "property": "C14",
   "status": "proved",
   "theorems": [
    "BoolParser.C14_missing",
    "BoolParser.C14_missing_arith",
    "BoolParser.C14_left",
    "BoolParser.C14_right"
   ],
   "note": ""
  },
  {
   "property": "C15",
   "status": "proved",
   "theorems": [
    "BoolParser.C15_missing",
    "BoolParser.C15_present",
    "BoolParser.C15_opposite",
    "BoolParser.C15_exceptions"
   ],
   "note": ""
  },
  {
   "property": "C16",
   "status": "proved",
   "theorems": [
    "BoolParser.C16_found",
    "BoolParser.C16_compare",
    "BoolParser.C16_missing",
    "BoolParser.C16_every_name",
    "BoolParser.C16_unique",
    "BoolParser.C16_missing_iff"
   ],
   "note": ""
  },
  {
   "property": "C17",
   "status": "proved",
   "theorems": [
    "BoolParser.C17_referenced",
    "BoolParser.C17_referenced_arith",
    "BoolParser.C17_any_text",
    "BoolParser.C17_every_text",
    "BoolParser.C17_every_text_arith",
    "BoolParser.C17_unused_field"
   ],
   "note": "C17_every_text covers every text, accepted or not. A literal in the place of a condition (NOT 'x', NOT 5) is looked up as a field by its text, so Mentions includes those names."
  },
  {
   "property": "C18",
   "status": "proved",
   "theorems": [
    "BoolParser.C18_add",
    "BoolParser.C18_mul",
    "BoolParser.C18_wholeValue"
   ],
   "note": ""
  },
  {
   "property": "C19",
   "status": "partial",
   "theorems": [
    "BoolParser.C19_sub_partial",
    "BoolParser.C19_wraps",
    "BoolParser.C19_wrong"
   ],
   "note": "False as stated: two Integers are subtracted in 32 bits (C19_wraps, C19_wrong are the negation). Proved: the exact difference whenever it fits the width of the wider operand."
  },
  {
   "property": "C20",
   "status": "proved",
   "theorems": [
    "BoolParser.C20_exact",
    "BoolParser.C20_commutes",
    "BoolParser.C20_associates"
   ],
   "note": ""
  },
  {
   "property": "C21",
   "status": "proved",
   "theorems": [
    "BoolParser.C21_div",
    "BoolParser.C21_truncation",
    "BoolParser.C21_zero",
    "BoolParser.C21_zero_numbers"
   ],
   "note": ""
  },
  {
   "property": "C22",
   "status": "proved",
   "theorems": [
    "BoolParser.C22_mod",
    "BoolParser.C22_zero",
    "BoolParser.C22_decimal"
   ],
   "note": ""
  },
  {
   "property": "C23",
   "status": "proved",
   "theorems": [
    "BoolParser.C23_neg",
    "BoolParser.C23_extremes",
    "BoolParser.C23_twice",
    "BoolParser.C23_double"
   ],
   "note": ""
  },
  {
   "property": "C24",
   "status": "proved",
   "theorems": [
    "BoolParser.C24_power"
   ],
   "note": ""
  },
  {
   "property": "C25",
   "status": "proved",
   "theorems": [
    "BoolParser.C25_concat",
    "BoolParser.C25_associates",
    "BoolParser.C25_date_glitch"
   ],
   "note": "C25_date_glitch: text that happens to read as a date is typed as a date before it is concatenated."
  },
  {
   "property": "C26",
   "status": "proved",
   "theorems": [
    "BoolParser.C26_min",
    "BoolParser.C26_max",
    "BoolParser.C26_min_whole",
    "BoolParser.C26_max_whole",
    "BoolParser.C26_order",
    "BoolParser.C26_imprecise"
   ],
   "note": "Exact for decimals and for whole numbers up to 2^53 in absolute value; beyond that the code goes through double (C26_imprecise)."
  },
  {
   "property": "C27",
   "status": "proved",
   "theorems": [
    "BoolParser.C27_sum",
    "BoolParser.C27_sum_whole",
    "BoolParser.C27_order"
   ],
   "note": ""
  },
  {
   "property": "C28",
   "status": "proved",
   "theorems": [
    "BoolParser.C28_mean",
    "BoolParser.C28_avg",
    "BoolParser.C28_avg_whole"
   ],
   "note": ""
  },
  {
   "property": "C29",
   "status": "proved",
   "theorems": [
    "BoolParser.C29_odd",
    "BoolParser.C29_even",
    "BoolParser.C29_order"
   ],
   "note": ""
  },
  {
   "property": "C30",
   "status": "proved",
   "theorems": [
    "BoolParser.C30_mode",
    "BoolParser.C30_unique"
   ],
   "note": ""
  },
  {
   "property": "C31",
   "status": "proved",
   "theorems": [
    "BoolParser.C31_text",
    "BoolParser.C31_list",
    "BoolParser.C31_short"
   ],
   "note": ""
  },
  {
   "property": "C32",
   "status": "proved",
   "theorems": [
    "BoolParser.C32_int"
   ],
   "note": ""
  },
  {
   "property": "C33",
   "status": "proved",
   "theorems": [
    "BoolParser.C33_days",
    "BoolParser.C33_total",
    "BoolParser.C33_additive"
   ],
   "note": ""
  },
  {
   "property": "C34",
   "status": "proved",
   "theorems": [
    "BoolParser.C34_many",
    "BoolParser.C34_int",
    "BoolParser.C34_days",
    "BoolParser.C34_empty",
    "BoolParser.C34_strict"
   ],
   "note": ""
  },
  {
   "property": "C35",
   "status": "proved",
   "theorems": [
    "BoolParser.C35_boolean_expression",
    "BoolParser.C35_general",
    "BoolParser.C35_truth_table"
   ],
   "note": ""
  },
  {
   "property": "C36",
   "status": "proved",
   "theorems": [
    "BoolParser.C36_arithmetic_expression",
    "BoolParser.C36_bottom_up",
    "BoolParser.C36_general"
   ],
   "note": ""
  },
  {
   "property": "C37",
   "status": "partial",
   "theorems": [
    "BoolParser.C37_fewest",
    "BoolParser.C37_fewest_conditions",
    "BoolParser.C37_least",
    "BoolParser.C37_least_value",
    "BoolParser.C37_least_conditions",
    "BoolParser.C37_least_meaning",
    "BoolParser.C37_reads",
    "BoolParser.C37_roundtrip",
    "BoolParser.C37_unambiguous",
    "BoolParser.C37_arithmetic_partial",
    "BoolParser.C37_node",
    "BoolParser.C37_conditions_partial",
    "BoolParser.C37_garbled",
    "BoolParser.C37_chain",
    "BoolParser.C37_ladder"
   ],
   "note": "Tree level complete: C37_roundtrip and C37_unambiguous cover every expression of the grammar. Through the API: C37_least and C37_least_conditions say exactly which trees come back when printed with the parentheses the ladder requires (calls and minus included; C37_fewest: no writing of the tree has fewer words), C37_least_value and C37_least_meaning give their values. Missing: the other trees, where the listener's operand stack loses the tree (negation: C37_garbled), and for C37_least trees with a repeated name or literal that the parser gets wrong."
  },
  {
   "property": "C38",
   "status": "proved",
   "theorems": [
    "BoolParser.C38_tokens",
    "BoolParser.C38_results",
    "BoolParser.C38_same_cut",
    "BoolParser.C38_ends",
    "BoolParser.C38_merging"
   ],
   "note": ""
  },
  {
   "property": "C39",
   "status": "proved",
   "theorems": [
    "BoolParser.C39_alone",
    "BoolParser.C39_len",
    "BoolParser.C39_equal",
    "BoolParser.C39_style",
    "BoolParser.C39_style_arith"
   ],
   "note": ""
  },
  {
   "property": "C40",
   "status": "partial",
   "theorems": [
    "BoolParser.C40_value",
    "BoolParser.C40_compare",
    "BoolParser.C40_zeros",
    "BoolParser.C40_zeros_arith",
    "BoolParser.C40_too_large_partial",
    "BoolParser.C40_too_large_compared",
    "BoolParser.C40_too_large_operand",
    "BoolParser.C40_alone_is_text",
    "BoolParser.C40_too_large_unnoticed"
   ],
   "note": "Values and leading zeros complete. 'Fails beyond that' is false in two places: a number that is the whole expression is returned as text (C40_alone_is_text), and the right operand of an atom-atom comparison in the middle of an expression can go unnoticed (C40_too_large_unnoticed). Proved for every other operand position."
  },
  {
   "property": "C41",
   "status": "partial",
   "theorems": [
    "BoolParser.C41_spelling_partial",
    "BoolParser.C41_spelling_arith_partial",
    "BoolParser.C41_mixed_case_not_keyword",
    "BoolParser.C41_every_text_partial",
    "BoolParser.C41_every_text_arith_partial"
   ],
   "note": "False as stated for mixed case (C41_mixed_case_not_keyword). Proved: all spellings the grammar knows are interchangeable everywhere, in every text whatsoever (C41_every_text_partial) if no data field is named like a keyword."
  },
  {
   "property": "C42",
   "status": "proved",
   "theorems": [
    "BoolParser.C42_default_field",
    "BoolParser.C42_filled_understood",
    "BoolParser.C42_no_default"
   ],
   "note": ""
  },
  {
   "property": "C43",
   "status": "partial",
   "theorems": [
    "BoolParser.C43_swap",
    "BoolParser.C43_swap_exact",
    "BoolParser.C43_swap_outcome",
    "BoolParser.C43_order_matters",
    "BoolParser.C43_both_orders_accepted_partial"
   ],
   "note": "False as stated (C43_order_matters). What is true instead is exact: C43_swap_exact says when the other order of two parenthesised conditions is understood, for all conditions of the grammar (the one that comes second must be able to follow the other, Spec/Order.lean); C43_swap_outcome says the outcome is then the same if both have one. C43_both_orders_accepted_partial: comparisons with AND, OR, NOT and parentheses are accepted in both orders."
  },
  {
   "property": "C44",
   "status": "partial",
   "theorems": [
    "BoolParser.C44_three_operands_wrong",
    "BoolParser.C44_arguments_partial",
    "BoolParser.C44_seen",
    "BoolParser.C44_twice_left",
    "BoolParser.C44_twice_right",
    "BoolParser.C44_two_compounds",
    "BoolParser.C44_seen_in",
    "BoolParser.C44_seen_contains"
   ],
   "note": "False as stated for arguments with three or more operands (C44_three_operands_wrong). C44_seen says what a call does with all lists of arguments made of fields, literals, operators and parentheses (Spec/Seen.lean); C44_twice_left, C44_twice_right and C44_two_compounds are the cases with one argument. C44_arguments_partial: atoms, one operator between atoms and nested calls of such arguments are evaluated as written. C44_seen_in and C44_seen_contains: the same for the items of lists."
  },
  {
   "property": "C45",
   "status": "partial",
   "theorems": [
    "BoolParser.C45_transparent",
    "BoolParser.C45_transparent_partial",
    "BoolParser.C45_one_default",
    "BoolParser.C45_evaluate",
    "BoolParser.C45_collides",
    "BoolParser.C45_collision",
    "BoolParser.C45_empty_default"
   ],
   "note": "False as stated: keys collide (C45_collision, C45_empty_default). Proved for histories in which the key is injective on the requests made (C45_transparent), in particular for default fields without '_' and for one fixed default field."
  },
  {
   "property": "C46",
   "status": "proved",
   "theorems": [
    "BoolParser.C46_failure",
    "BoolParser.C46_entries",
    "BoolParser.C46_remembered",
    "BoolParser.C46_size",
    "BoolParser.C46_one_entry"
   ],
   "note": "The bound on the number of entries is proved after an eviction that keeps at most m keys plus j later requests; when Caffeine evicts is left open."
  },
  {
   "property": "C47",
   "status": "proved",
   "theorems": [
    "BoolParser.C47_no_memory",
    "BoolParser.C47_no_memory_arith",
    "BoolParser.C47_is_evaluate"
   ],
   "note": "Histories of constructions, evaluations through the plain and the caching parser, and evictions. Data and nodes are immutable values here; that data maps and nodes are not modified is proved in the model with objects, C88_untouched, and that earlier evaluations make no difference there, C88_order."
  },
  {
   "property": "C48",
   "status": "partial",
   "theorems": [
    "BoolParser.C48_registered",
    "BoolParser.C48_permanent",
    "BoolParser.C48_custom_lost",
    "BoolParser.C48_custom_partial",
    "BoolParser.C48_evaluates",
    "BoolParser.C48_evaluates_arith",
    "BoolParser.C48_symbols",
    "BoolParser.C48_custom_used",
    "BoolParser.C48_custom_reset"
   ],
   "note": "First sentence complete: C48_evaluates covers every interleaving of other threads' constructor steps with the reads of an evaluation. 'A custom data type stays in force' is false (C48_custom_lost, C48_custom_reset); proved while only parsers are constructed (C48_custom_partial, C48_custom_used). Not modelled: visibility of unsynchronised writes in the Java memory model."
  },
  {
   "property": "C49",
   "status": "proved",
   "theorems": [
    "BoolParser.C49_cut",
    "BoolParser.C49_kinds",
    "BoolParser.C49_one_kind",
    "BoolParser.C49_complete"
   ],
   "note": ""
  },
  {
   "property": "C50",
   "status": "partial",
   "theorems": [
    "BoolParser.C50_numeric_text_partial",
    "BoolParser.C50_numeric_text_right_partial",
    "BoolParser.C50_text_not_accepted",
    "BoolParser.C50_fraction_text_fails",
    "BoolParser.C50_decimal_text"
   ],
   "note": "False for a text the other operand's type cannot hold (C50_fraction_text_fails, C50_text_not_accepted). Proved otherwise, on either side."
  },
  {
   "property": "C51",
   "status": "proved",
   "theorems": [
    "BoolParser.C51_any",
    "BoolParser.C51_any_without_len",
    "BoolParser.C51_results",
    "BoolParser.C51_without_len",
    "BoolParser.C51_numbers",
    "BoolParser.C51_literals"
   ],
   "note": "LEN counts a Java list or text, whose size is an int; C51_results takes that as a hypothesis on the data, C51_without_len needs none."
  },
  {
   "property": "C52",
   "status": "partial",
   "theorems": [
    "BoolParser.C52_bare_field_false",
    "BoolParser.C52_not_field_partial"
   ],
   "note": "False as stated (C52_bare_field_false: always false). Proved for NOT f."
  },
  {
   "property": "C53",
   "status": "partial",
   "theorems": [
    "BoolParser.C53_calculation",
    "BoolParser.C53_arithmetic_is_false",
    "BoolParser.C53_comparison_with_sum_is_false",
    "BoolParser.C53_parenthesised_partial"
   ],
   "note": "False as stated (C53_arithmetic_is_false). Proved for arithmetic in parentheses. C53_calculation says for every text of the grammar which ones have arithmetic on top, by their lexemes outside parentheses (Spec/Outside): they are refused or answered no whatever the data."
  },
  {
   "property": "C54",
   "status": "proved",
   "theorems": [
    "BoolParser.C54_order",
    "BoolParser.C54_order_arith",
    "BoolParser.C54_map_text_differs"
   ],
   "note": ""
  },
  {
   "property": "C55",
   "status": "proved",
   "theorems": [
    "BoolParser.C55_de_morgan_and",
    "BoolParser.C55_de_morgan_or",
    "BoolParser.C55_double_negation",
    "BoolParser.C55_assoc_and",
    "BoolParser.C55_assoc_or",
    "BoolParser.C55_distrib_and",
    "BoolParser.C55_distrib_or",
    "BoolParser.C55_absorption",
    "BoolParser.C55_comm_and",
    "BoolParser.C55_comm_or",
    "BoolParser.C55_basic_de_morgan",
    "BoolParser.C55_comm_needs_no_failure"
   ],
   "note": ""
  },
  {
   "property": "C56",
   "status": "proved",
   "theorems": [
    "BoolParser.C56_accepted",
    "BoolParser.C56_evaluated",
    "BoolParser.C56_balanced"
   ],
   "note": ""
  },
  {
   "property": "C57",
   "status": "proved",
   "theorems": [
    "BoolParser.C57_parentheses",
    "BoolParser.C57_not",
    "BoolParser.C57_wrapped",
    "BoolParser.C57_wrapped_not",
    "BoolParser.C57_end_needed"
   ],
   "note": ""
  },
  {
   "property": "C59",
   "status": "proved",
   "theorems": [
    "BoolParser.C59_pure",
    "BoolParser.C59_clock",
    "BoolParser.C59_power"
   ],
   "note": ""
  },
  {
   "property": "C60",
   "status": "proved",
   "theorems": [
    "BoolParser.C60_more_data",
    "BoolParser.C60_more_data_arith",
    "BoolParser.C60_added_fields",
    "BoolParser.C60_added_fields_arith"
   ],
   "note": ""
  },
  {
   "property": "C62",
   "status": "proved",
   "theorems": [
    "BoolParser.C62_rename"
   ],
   "note": ""
  },
  {
   "property": "C58",
   "status": "proved",
   "theorems": [
    "BoolParser.C58_condition",
    "BoolParser.C58_arithmetic",
    "BoolParser.C58_types_needed"
   ],
   "note": "Division, powers and functions whose failure depends on values (AVG, MEDIAN, MODE, INT, DAYS_ELAPSED) are not in the typing rules; unary minus on Double/Float fails and is excluded by the types."
  },
  {
   "property": "C61",
   "status": "proved",
   "theorems": [
    "BoolParser.C61_condition",
    "BoolParser.C61_arithmetic",
    "BoolParser.C61_consistent"
   ],
   "note": "Assumes Math.pow is exact where the result is a whole number of at most 53 bits (ExactPow). Cases the rules leave out (mixed kinds, failures) are covered by the other properties."
  },
  {
   "property": "C63",
   "status": "proved",
   "theorems": [
    "BoolParser.C63_condition",
    "BoolParser.C63_arithmetic",
    "BoolParser.C63_complete_data",
    "BoolParser.C63_complete_data_arith"
   ],
   "note": ""
  },
  {
   "property": "C64",
   "status": "proved",
   "theorems": [
    "BoolParser.C64_refusals",
    "BoolParser.C64_all_data",
    "BoolParser.C64_numbers"
   ],
   "note": ""
  },
  {
   "property": "C65",
   "status": "proved",
   "theorems": [
    "BoolParser.C65_condition",
    "BoolParser.C65_arithmetic",
    "BoolParser.C65_lone_field",
    "BoolParser.C65_same",
    "BoolParser.C65_default"
   ],
   "note": ""
  },
  {
   "property": "C66",
   "status": "proved",
   "theorems": [
    "BoolParser.C66_condition",
    "BoolParser.C66_arithmetic"
   ],
   "note": ""
  },
  {
   "property": "C67",
   "status": "proved",
   "theorems": [
    "BoolParser.C67_polynomial",
    "BoolParser.C67_equal"
   ],
   "note": ""
  },
  {
   "property": "C68",
   "status": "proved",
   "theorems": [
    "BoolParser.C68_in",
    "BoolParser.C68_not_in",
    "BoolParser.C68_contains",
    "BoolParser.C68_missing_item"
   ],
   "note": ""
  },
  {
   "property": "C69",
   "status": "proved",
   "theorems": [
    "BoolParser.C69_numeric",
    "BoolParser.C69_representation",
    "BoolParser.C69_equivalent"
   ],
   "note": ""
  },
  {
   "property": "C70",
   "status": "proved",
   "theorems": [
    "BoolParser.C70_cut",
    "BoolParser.C70_kinds",
    "BoolParser.C70_pieces",
    "BoolParser.C70_skipped",
    "BoolParser.C70_rules"
   ],
   "note": ""
  },
  {
   "property": "C71",
   "status": "proved",
   "theorems": [
    "BoolParser.C71_kinds",
    "BoolParser.C71_values"
   ],
   "note": ""
  },
  {
   "property": "C72",
   "status": "proved",
   "theorems": [
    "BoolParser.C72_equal",
    "BoolParser.C72_flag",
    "BoolParser.C72_no_order",
    "BoolParser.C72_text",
    "BoolParser.C72_text_right"
   ],
   "note": ""
  },
  {
   "property": "C73",
   "status": "proved",
   "theorems": [
    "BoolParser.C73_parse",
    "BoolParser.C73_evaluate",
    "BoolParser.C73_arithmetic",
    "BoolParser.C73_reported",
    "BoolParser.C73_grammar"
   ],
   "note": ""
  },
  {
   "property": "C74",
   "status": "proved",
   "theorems": [
    "BoolParser.C74_trailing",
    "BoolParser.C74_not_refused"
   ],
   "note": ""
  },
  {
   "property": "C75",
   "status": "proved",
   "theorems": [
    "BoolParser.C75_unclosed",
    "BoolParser.C75_same"
   ],
   "note": ""
  },
  {
   "property": "C76",
   "status": "proved",
   "theorems": [
    "BoolParser.C76_refusals",
    "BoolParser.C76_null",
    "BoolParser.C76_all_data",
    "BoolParser.C76_numbers"
   ],
   "note": ""
  },
  {
   "property": "C77",
   "status": "proved",
   "theorems": [
    "BoolParser.C77_decodes",
    "BoolParser.C77_language",
    "BoolParser.C77_unambiguous",
    "BoolParser.C77_accepts",
    "BoolParser.C77_frontEnd",
    "BoolParser.C77_recovery",
    "BoolParser.C77_recovery_inside"
   ],
   "note": ""
  },
  {
   "property": "C78",
   "status": "proved",
   "theorems": [
    "BoolParser.C78_slips",
    "BoolParser.C78_evaluate"
   ],
   "note": ""
  },
  {
   "property": "C79",
   "status": "proved",
   "theorems": [
    "BoolParser.C79_condition",
    "BoolParser.C79_arithmetic",
    "BoolParser.C79_null_pointer",
    "BoolParser.C79_null_pointer_arith",
    "BoolParser.C79_no_division",
    "BoolParser.C79_no_such_element",
    "BoolParser.C79_class_cast",
    "BoolParser.C79_number_format",
    "BoolParser.C79_empty_stack",
    "BoolParser.C79_unsupported",
    "BoolParser.C79_formula",
    "BoolParser.C79_only_types"
   ],
   "note": ""
  },
  {
   "property": "C80",
   "status": "proved",
   "theorems": [
    "BoolParser.C80_order",
    "BoolParser.C80_objects",
    "BoolParser.C80_transitive",
    "BoolParser.C80_trichotomy",
    "BoolParser.C80_dotted_word"
   ],
   "note": ""
  },
  {
   "property": "C81",
   "status": "proved",
   "theorems": [
    "BoolParser.C81_equal",
    "BoolParser.C81_equal_right",
    "BoolParser.C81_one",
    "BoolParser.C81_joined",
    "BoolParser.C81_contains_all",
    "BoolParser.C81_contains_any",
    "BoolParser.C81_integers",
    "BoolParser.C81_dates",
    "BoolParser.C81_datetimes"
   ],
   "note": ""
  },
  {
   "property": "C82",
   "status": "proved",
   "theorems": [
    "BoolParser.C82_mentioned_names",
    "BoolParser.C82_mentioned_names_arith",
    "BoolParser.C82_environment",
    "BoolParser.C82_more_data",
    "BoolParser.C82_more_data_arith",
    "BoolParser.C82_added_fields",
    "BoolParser.C82_missing",
    "BoolParser.C82_missing_arith",
    "BoolParser.C82_refused"
   ],
   "note": ""
  },
  {
   "property": "C83",
   "status": "proved",
   "theorems": [
    "BoolParser.C83_condition",
    "BoolParser.C83_arithmetic",
    "BoolParser.C83_operator",
    "BoolParser.C83_comparison",
    "BoolParser.C83_function"
   ],
   "note": "Families: C83_condition and C83_arithmetic, for any set of families and any registered objects. Single operations with one replaced type: C83_comparison, C83_operator, C83_function (exact, including the ClassCastException). The case of an operand that has the replaced type depends on the user's object and is left to C48."
  },
  {
   "property": "C84",
   "status": "proved",
   "theorems": [
    "BoolParser.C84_one_reading",
    "BoolParser.C84_days",
    "BoolParser.C84_moments",
    "BoolParser.C84_day_and_moment",
    "BoolParser.C84_ordinary",
    "BoolParser.C84_cases",
    "BoolParser.C84_days_elapsed",
    "BoolParser.C84_days_refused"
   ],
   "note": "Exact characterisation of the texts read as days and moments, all comparisons among texts, days and moments (C84_cases: the theorems cover every pair of texts), and DAYS_ELAPSED of every text. C71, C72 and C81 use the same classes."
  },
  {
   "property": "C85",
   "status": "proved",
   "theorems": [
    "BoolParser.C85_conditions",
    "BoolParser.C85_arithmetic",
    "BoolParser.C85_others",
    "BoolParser.C85_call",
    "BoolParser.C85_minus",
    "BoolParser.C85_operator",
    "BoolParser.C85_comparison",
    "BoolParser.C85_connective",
    "BoolParser.C85_after_membership",
    "BoolParser.C85_single"
   ],
   "note": "Both directions of the criterion (`readable`, Spec/Nodes.lean), for every well-formed condition and calculation without repeated names or literals; without that condition an expression can come out right by coincidence. C85_call to C85_after_membership restate the criterion construct by construct, C85_single covers lone operands in parentheses. Shows that the positive parts of C37, C43 and C44 cannot be widened."
  },
  {
   "property": "C86",
   "status": "proved",
   "theorems": [
    "BoolParser.C86_operators",
    "BoolParser.C86_minus",
    "BoolParser.C86_functions",
    "BoolParser.C86_every_text",
    "BoolParser.C86_grammar"
   ],
   "note": "OperatorGives and FunctionGives (Spec/ResultTypes.lean) are the table of the statement. C86_every_text covers malformed texts too."
  },
  {
   "property": "C87",
   "status": "proved",
   "theorems": [
    "BoolParser.C87_common",
    "BoolParser.C87_capitals",
    "BoolParser.C87_functions",
    "BoolParser.C87_sound",
    "BoolParser.C87_common_any",
    "BoolParser.C87_capitals_any",
    "BoolParser.C87_sound_any",
    "BoolParser.C87_grammar",
    "BoolParser.C87_contains",
    "BoolParser.C87_says",
    "BoolParser.C87_quotes",
    "BoolParser.C87_symbols",
    "BoolParser.C87_truth"
   ],
   "note": "evaluate, evaluateArith and evaluateAny, evaluateArithAny, the subjects of the other claims, are the library under a non-Turkish locale by C87_common and C87_common_any. C87_grammar ties the theorems about texts of the grammar to those about any text. C87_functions and C87_contains are about texts of the grammar; beside C87_sound_any is a text for which they would be false. C87_says gives the exact message of a lower-case call under a Turkish locale, C87_quotes what the messages on any text under any locale quote."
  },
  {
   "property": "C88",
   "status": "proved",
   "theorems": [
    "BoolParser.C88_untouched",
    "BoolParser.C88_condition",
    "BoolParser.C88_arithmetic",
    "BoolParser.C88_field",
    "BoolParser.C88_order"
   ],
   "note": "C88_untouched has no hypotheses: any object graph, any depth limit, any outcome. K in the other theorems is a bound for the depth of recursion (Java's stack)."
  },
  {
   "property": "C89",
   "status": "proved",
   "theorems": [
    "BoolParser.C89_fresh",
    "BoolParser.C89_plain",
    "BoolParser.C89_cached",
    "BoolParser.C89_shared",
    "BoolParser.C89_meddled"
   ],
   "note": "A characterisation: C89_plain and C89_cached are the guarantees, C89_shared and C89_meddled show that the condition on changes is needed. Act.change writes any object, which covers all setters and list methods."
  },
  {
   "property": "C90",
   "status": "proved",
   "theorems": [
    "BoolParser.C90_call",
    "BoolParser.C90_condition",
    "BoolParser.C90_parse",
    "BoolParser.C90_ends",
    "BoolParser.C90_torn"
   ],
   "note": "C90_call covers all three methods; C90_condition and C90_parse spell two of them out. The rules for code outside the library are Allowed in Spec/Threads; C90_torn shows that the rule about data is needed, C89_meddled the one about cached trees, C45_collision the one about keys. K bounds the depth of recursion as in C88."
  },
  {
   "property": "C91",
   "status": "proved",
   "theorems": [
    "BoolParser.C91_given",
    "BoolParser.C91_null_text",
    "BoolParser.C91_null_data",
    "BoolParser.C91_not_empty",
    "BoolParser.C91_cached",
    "BoolParser.C91_cached_null"
   ],
   "note": "C91_given ties the entry points with nullable arguments to those of Model/Recovery. C91_cached_null shows that the second case of C91_cached happens."
  },
  {
   "property": "C92",
   "status": "proved",
   "theorems": [
    "BoolParser.C92_order",
    "BoolParser.C92_otherwise",
    "BoolParser.C92_order_right",
    "BoolParser.C92_range",
    "BoolParser.C92_scripts",
    "BoolParser.C92_equality"
   ],
   "note": "Spec.Numeral (Spec/Numbers) is the grammar of numeric texts; numeral_iff shows that it describes exactly the texts the model of BigDecimal reads."
  },
  {
   "property": "C93",
   "status": "proved",
   "theorems": [
    "BoolParser.C93_condition",
    "BoolParser.C93_arithmetic",
    "BoolParser.C93_no_division",
    "BoolParser.C93_number_format",
    "BoolParser.C93_class_cast",
    "BoolParser.C93_words",
    "BoolParser.C93_empty_stack",
    "BoolParser.C93_null_pointer",
    "BoolParser.C93_types",
    "BoolParser.C93_unsupported",
    "BoolParser.C93_unary",
    "BoolParser.C93_malformed"
   ],
   "note": "Cause (Spec/Causes) is the table of C79, Slip (Spec/AnyCauses) what malformed texts add. Each clause of Slip is shown to occur by an example."
  },
  {
   "property": "C94",
   "status": "proved",
   "theorems": [
    "BoolParser.C94_rename",
    "BoolParser.C94_spelling",
    "BoolParser.C94_spelling_arith",
    "BoolParser.C94_reports",
    "BoolParser.C94_bounds_needed"
   ],
   "note": "Renames and SameKeyword are those of C62 and C41 (Spec/Mentions). C94_bounds_needed shows that the condition on ranges cannot be dropped."
  },
  {
   "property": "C95",
   "status": "proved",
   "theorems": [
    "BoolParser.C95_quadratic",
    "BoolParser.C95_characters",
    "BoolParser.C95_depth",
    "BoolParser.C95_linear",
    "BoolParser.C95_linear_arith",
    "BoolParser.C95_square_reached",
    "BoolParser.C95_not_linear"
   ],
   "note": "nodeCount and nodeDepth are defined in Spec/Size by recursion on the node. C95_not_linear shows that the square cannot be replaced by a linear bound for other texts."
  },
  {
   "property": "C96",
   "status": "proved",
   "theorems": [
    "BoolParser.C96_plain",
    "BoolParser.C96_answers",
    "BoolParser.C96_answers_arith",
    "BoolParser.C96_snapshot",
    "BoolParser.C96_throws",
    "BoolParser.C96_bounded",
    "BoolParser.C96_mentions",
    "BoolParser.C96_reading_order",
    "BoolParser.C96_single",
    "BoolParser.C96_arith",
    "BoolParser.C96_and",
    "BoolParser.C96_or",
    "BoolParser.C96_asked_again",
    "BoolParser.C96_mentioned"
   ],
   "note": "A question is one call of getValueFromMap, that is one name; the steps of a dotted name through nested maps count as one. C96_plain ties the model with questions to the evaluators of the other claims. C96_mentioned: any text asks only for names it mentions."
  },
  {
   "property": "C97",
   "status": "proved",
   "theorems": [
    "BoolParser.C97_same",
    "BoolParser.C97_last_asked",
    "BoolParser.C97_names_missing",
    "BoolParser.C97_names_missing_arith",
    "BoolParser.C97_first",
    "BoolParser.C97_first_arith",
    "BoolParser.C97_written",
    "BoolParser.C97_rounds",
    "BoolParser.C97_right_unnamed"
   ],
   "note": "C97_same ties the model with messages to the one of C96. Only the key of a DataNotFoundException is modelled here; the other messages: C101, C102."
  },
  {
   "property": "C98",
   "status": "proved",
   "theorems": [
    "BoolParser.C98_plain",
    "BoolParser.C98_route",
    "BoolParser.C98_calls",
    "BoolParser.C98_keys",
    "BoolParser.C98_count",
    "BoolParser.C98_count_arith",
    "BoolParser.C98_answers",
    "BoolParser.C98_throws",
    "BoolParser.C98_class_cast"
   ],
   "note": "C98_plain ties the model with nested maps to the evaluators of the other claims; the questions of C96 are the look-ups of whole names. The values a map returns are plain values; only maps, found by instanceof Map, are the user's own."
  },
  {
   "property": "C99",
   "status": "proved",
   "theorems": [
    "BoolParser.C99_asks",
    "BoolParser.C99_thrown",
    "BoolParser.C99_failure",
    "BoolParser.C99_node",
    "BoolParser.C99_delegates",
    "BoolParser.C99_complete",
    "BoolParser.C99_library",
    "BoolParser.C99_null",
    "BoolParser.C99_null_test",
    "BoolParser.C99_unseen",
    "BoolParser.C99_in",
    "BoolParser.C99_misplaced",
    "BoolParser.C99_wrong_operator",
    "BoolParser.C99_untyped_bound",
    "BoolParser.C99_foreign"
   ],
   "note": "C99_library and C99_delegates tie the model of hand-made nodes to the one of the other claims. C99_null_test shows why the two kinds of fillings left out of Spec.Fill are left out. C99_wrong_operator and C99_untyped_bound name the failures that C99_misplaced leaves open. Not represented: EvaluatedNode objects as values of a UnaryNode, cyclic nodes, overriding subclasses of the library's node classes."
  },
  {
   "property": "C100",
   "status": "proved",
   "theorems": [
    "BoolParser.C100_none",
    "BoolParser.C100_operand",
    "BoolParser.C100_claimed",
    "BoolParser.C100_twice",
    "BoolParser.C100_function",
    "BoolParser.C100_in",
    "BoolParser.C100_contains",
    "BoolParser.C100_condition"
   ],
   "note": "C100_none ties the model to the one of the other claims. C100_claimed is the only theorem about objects that claim another data type than the one of their value. Not represented: objects without a data type."
  },
  {
   "property": "C101",
   "status": "proved",
   "theorems": [
    "BoolParser.C101_same",
    "BoolParser.C101_calculation",
    "BoolParser.C101_condition",
    "BoolParser.C101_told",
    "BoolParser.C101_told_calculation",
    "BoolParser.C101_operator",
    "BoolParser.C101_right_called_left",
    "BoolParser.C101_unsupported"
   ],
   "note": "C101_same ties the evaluators with messages to those of the other claims, for any text. The rules are Arith.Complains and Cond.Complains in Spec/Wording.lean. Messages of the parser: C102. Those of the JDK are not modelled."
  },
  {
   "property": "C102",
   "status": "proved",
   "theorems": [
    "BoolParser.C102_same",
    "BoolParser.C102_names",
    "BoolParser.C102_quotes",
    "BoolParser.C102_evaluators",
    "BoolParser.C102_argument",
    "BoolParser.C102_item",
    "BoolParser.C102_contained",
    "BoolParser.C102_operands",
    "BoolParser.C102_sides",
    "BoolParser.C102_joined"
   ],
   "note": "C102_same ties the parser with messages to that of the other claims, for any text. The rules are Reproach in Spec/Refusal.lean for texts of the grammar and Quotes in Spec/Verbatim.lean for the others."
  }
 ]
}
