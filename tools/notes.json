{
"C05": {
"note": "Trichotomy and transitivity hold within each kind (numbers, texts, dates, date-times); C05_mixed_kinds shows that equality is not transitive across kinds."
},
"C12": {
"note": "Includes the failing cases: a field that is no list, and a Set (C12_set_fails)."
},
"C17": {
"note": "C17_every_text covers every text, accepted or not. A literal in the place of a condition (NOT 'x', NOT 5) is looked up as a field by its text, so Mentions includes those names."
},
"C19": {
"note": "False as stated: two Integers are subtracted in 32 bits (C19_wraps, C19_wrong are the negation). Proved: the exact difference whenever it fits the width of the wider operand."
},
"C25": {
"note": "C25_date_glitch: text that happens to read as a date is typed as a date before it is concatenated."
},
"C26": {
"note": "Exact for decimals and for whole numbers up to 2^53 in absolute value; beyond that the code goes through double (C26_imprecise)."
},
"C37": {
"note": "Tree level complete: C37_roundtrip and C37_unambiguous cover every expression of the grammar. Through the API: C37_least and C37_least_conditions say exactly which trees come back when printed with the parentheses the ladder requires (calls and minus included; C37_fewest: no writing of the tree has fewer words), C37_least_value and C37_least_meaning give their values. Missing: the other trees, where the listener's operand stack loses the tree (negation: C37_garbled), and for C37_least trees with a repeated name or literal that the parser gets wrong."
},
"C40": {
"note": "Values and leading zeros complete. 'Fails beyond that' is false in two places: a number that is the whole expression is returned as text (C40_alone_is_text), and the right operand of an atom-atom comparison in the middle of an expression can go unnoticed (C40_too_large_unnoticed). Proved for every other operand position."
},
"C41": {
"note": "False as stated for mixed case (C41_mixed_case_not_keyword). Proved: all spellings the grammar knows are interchangeable everywhere, in every text whatsoever (C41_every_text_partial) if no data field is named like a keyword."
},
"C43": {
"note": "False as stated (C43_order_matters). What is true instead is exact: C43_swap_exact says when the other order of two parenthesised conditions is understood, for all conditions of the grammar (the one that comes second must be able to follow the other, Spec/Order.lean); C43_swap_outcome says the outcome is then the same if both have one. C43_both_orders_accepted_partial: comparisons with AND, OR, NOT and parentheses are accepted in both orders."
},
"C44": {
"note": "False as stated for arguments with three or more operands (C44_three_operands_wrong). C44_seen says what a call does with all lists of arguments made of fields, literals, operators and parentheses (Spec/Seen.lean); C44_twice_left, C44_twice_right and C44_two_compounds are the cases with one argument. C44_arguments_partial: atoms, one operator between atoms and nested calls of such arguments are evaluated as written. C44_seen_in and C44_seen_contains: the same for the items of lists."
},
"C45": {
"note": "False as stated: keys collide (C45_collision, C45_empty_default). Proved for histories in which the key is injective on the requests made (C45_transparent), in particular for default fields without '_' and for one fixed default field."
},
"C46": {
"note": "The bound on the number of entries is proved after an eviction that keeps at most m keys plus j later requests; when Caffeine evicts is left open."
},
"C47": {
"note": "Histories of constructions, evaluations through the plain and the caching parser, and evictions. Data and nodes are immutable values here; that data maps and nodes are not modified is proved in the model with objects, C88_untouched, and that earlier evaluations make no difference there, C88_order."
},
"C48": {
"note": "First sentence complete: C48_evaluates covers every interleaving of other threads' constructor steps with the reads of an evaluation. 'A custom data type stays in force' is false (C48_custom_lost, C48_custom_reset); proved while only parsers are constructed (C48_custom_partial, C48_custom_used). Not modelled: visibility of unsynchronised writes in the Java memory model."
},
"C50": {
"note": "False for a text the other operand's type cannot hold (C50_fraction_text_fails, C50_text_not_accepted). Proved otherwise, on either side."
},
"C51": {
"note": "LEN counts a Java list or text, whose size is an int; C51_results takes that as a hypothesis on the data, C51_without_len needs none."
},
"C52": {
"note": "False as stated (C52_bare_field_false: always false). Proved for NOT f."
},
"C53": {
"note": "False as stated (C53_arithmetic_is_false). Proved for arithmetic in parentheses. C53_calculation says for every text of the grammar which ones have arithmetic on top, by their lexemes outside parentheses (Spec/Outside): they are refused or answered no whatever the data."
},
"C58": {
"note": "Division, powers and functions whose failure depends on values (AVG, MEDIAN, MODE, INT, DAYS_ELAPSED) are not in the typing rules; unary minus on Double/Float fails and is excluded by the types."
},
"C61": {
"note": "Assumes Math.pow is exact where the result is a whole number of at most 53 bits (ExactPow). Cases the rules leave out (mixed kinds, failures) are covered by the other properties."
},
"C83": {
"note": "Families: C83_condition and C83_arithmetic, for any set of families and any registered objects. Single operations with one replaced type: C83_comparison, C83_operator, C83_function (exact, including the ClassCastException). The case of an operand that has the replaced type depends on the user's object and is left to C48."
},
"C84": {
"note": "Exact characterisation of the texts read as days and moments, all comparisons among texts, days and moments (C84_cases: the theorems cover every pair of texts), and DAYS_ELAPSED of every text. C71, C72 and C81 use the same classes."
},
"C85": {
"note": "Both directions of the criterion (`readable`, Spec/Nodes.lean), for every well-formed condition and calculation without repeated names or literals; without that condition an expression can come out right by coincidence. C85_call to C85_after_membership restate the criterion construct by construct, C85_single covers lone operands in parentheses. Shows that the positive parts of C37, C43 and C44 cannot be widened."
},
"C86": {
"note": "OperatorGives and FunctionGives (Spec/ResultTypes.lean) are the table of the statement. C86_every_text covers malformed texts too."
},
"C87": {
"note": "evaluate, evaluateArith and evaluateAny, evaluateArithAny, the subjects of the other claims, are the library under a non-Turkish locale by C87_common and C87_common_any. C87_grammar ties the theorems about texts of the grammar to those about any text. C87_functions and C87_contains are about texts of the grammar; beside C87_sound_any is a text for which they would be false. C87_says gives the exact message of a lower-case call under a Turkish locale, C87_quotes what the messages on any text under any locale quote."
},
"C88": {
"note": "C88_untouched has no hypotheses: any object graph, any depth limit, any outcome. K in the other theorems is a bound for the depth of recursion (Java's stack)."
},
"C89": {
"note": "A characterisation: C89_plain and C89_cached are the guarantees, C89_shared and C89_meddled show that the condition on changes is needed. Act.change writes any object, which covers all setters and list methods."
},
"C90": {
"note": "C90_call covers all three methods; C90_condition and C90_parse spell two of them out. The rules for code outside the library are Allowed in Spec/Threads; C90_torn shows that the rule about data is needed, C89_meddled the one about cached trees, C45_collision the one about keys. K bounds the depth of recursion as in C88."
},
"C91": {
"note": "C91_given ties the entry points with nullable arguments to those of Model/Recovery. C91_cached_null shows that the second case of C91_cached happens."
},
"C92": {
"note": "Spec.Numeral (Spec/Numbers) is the grammar of numeric texts; numeral_iff shows that it describes exactly the texts the model of BigDecimal reads."
},
"C93": {
"note": "Cause (Spec/Causes) is the table of C79, Slip (Spec/AnyCauses) what malformed texts add. Each clause of Slip is shown to occur by an example."
},
"C94": {
"note": "Renames and SameKeyword are those of C62 and C41 (Spec/Mentions). C94_bounds_needed shows that the condition on ranges cannot be dropped."
},
"C95": {
"note": "nodeCount and nodeDepth are defined in Spec/Size by recursion on the node. C95_not_linear shows that the square cannot be replaced by a linear bound for other texts."
},
"C96": {
"note": "A question is one call of getValueFromMap, that is one name; the steps of a dotted name through nested maps count as one. C96_plain ties the model with questions to the evaluators of the other claims. C96_mentioned: any text asks only for names it mentions."
},
"C97": {
"note": "C97_same ties the model with messages to the one of C96. Only the key of a DataNotFoundException is modelled here; the other messages: C101, C102."
},
"C98": {
"note": "C98_plain ties the model with nested maps to the evaluators of the other claims; the questions of C96 are the look-ups of whole names. The values a map returns are plain values; only maps, found by instanceof Map, are the user's own."
},
"C99": {
"note": "C99_library and C99_delegates tie the model of hand-made nodes to the one of the other claims. C99_null_test shows why the two kinds of fillings left out of Spec.Fill are left out. C99_wrong_operator and C99_untyped_bound name the failures that C99_misplaced leaves open. Not represented: EvaluatedNode objects as values of a UnaryNode, cyclic nodes, overriding subclasses of the library's node classes."
},
"C100": {
"note": "C100_none ties the model to the one of the other claims. C100_claimed is the only theorem about objects that claim another data type than the one of their value. Not represented: objects without a data type."
},
"C101": {
"note": "C101_same ties the evaluators with messages to those of the other claims, for any text. The rules are Arith.Complains and Cond.Complains in Spec/Wording.lean. Messages of the parser: C102. Those of the JDK are not modelled."
},
"C102": {
"note": "C102_same ties the parser with messages to that of the other claims, for any text. The rules are Reproach in Spec/Refusal.lean for texts of the grammar and Quotes in Spec/Verbatim.lean for the others."
}
}