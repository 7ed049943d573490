{"id": "C01", "title": "AND / OR / NOT are sequential boolean connectives", "statement": "Evaluating a parsed `X AND Y` gives false as soon as X is false and otherwise the outcome of Y; `X OR Y` gives true as soon as X is true and otherwise the outcome of Y; `NOT X` gives the opposite boolean of X. A failure of the operand that is looked at first is the failure of the whole, and a failure of an operand that short-circuiting skips is never observed.", "quantifier": "all operand sub-expressions (arbitrarily nested), all data maps, all failure kinds", "why_tests_cant": "Operands range over unboundedly nested expressions and data; the failure/short-circuit interaction is a statement about every pair of outcomes.", "anchors": ["src/main/java/com/github/sidhant92/boolparser/application/BooleanExpressionEvaluator.java:evaluateBooleanNode", "src/main/java/com/github/sidhant92/boolparser/domain/logical/BooleanNode.java"]}
{"id": "C02", "title": "`!=` is the exact complement of `=`", "statement": "For any two operands, `a != b` succeeds exactly when `a = b` succeeds, with the opposite boolean, and fails with the same failure otherwise.", "quantifier": "all pairs of operand values of every data type, including values that cannot be coerced", "why_tests_cant": "The coercion matrix (8x8 types, unbounded values) cannot be enumerated.", "anchors": ["src/main/java/com/github/sidhant92/boolparser/operator/comparison/EqualsOperator.java:evaluate", "src/main/java/com/github/sidhant92/boolparser/operator/comparison/NotEqualsOperator.java:evaluate", "src/main/java/com/github/sidhant92/boolparser/operator/OperatorService.java:evaluateLogicalOperator"]}
{"id": "C03", "title": "Order operators are dual and complementary", "statement": "`a < b` has the same outcome as `b > a`, `a <= b` as `b >= a`; and `a <= b` is the complement of `a > b`, `a >= b` the complement of `a < b`, whenever the comparison is type-correct.", "quantifier": "all pairs of operand values of every data type", "why_tests_cant": "Quantifies over all value pairs and all type-coercion paths.", "anchors": ["src/main/java/com/github/sidhant92/boolparser/operator/comparison/GreaterThanOperator.java", "src/main/java/com/github/sidhant92/boolparser/operator/comparison/LessThanOperator.java", "src/main/java/com/github/sidhant92/boolparser/operator/comparison/GreaterThanEqualOperator.java", "src/main/java/com/github/sidhant92/boolparser/operator/comparison/LessThanEqualOperator.java", "src/main/java/com/github/sidhant92/boolparser/operator/comparison/NumericOperator.java"]}
{"id": "C04", "title": "Numbers compare by mathematical value", "statement": "For Integer, Long, BigDecimal operands in any combination, `=`,`!=`,`<`,`<=`,`>`,`>=` return exactly what the mathematical values say, independent of Java type and of BigDecimal scale (5 = 5.00, 2147483648L > 2147483647).", "quantifier": "all Integers, Longs and BigDecimals of any precision and scale", "why_tests_cant": "Infinite value space; scale and width boundaries.", "anchors": ["src/main/java/com/github/sidhant92/boolparser/operator/comparison/NumericOperator.java", "src/main/java/com/github/sidhant92/boolparser/operator/comparison/EqualsOperator.java", "src/main/java/com/github/sidhant92/boolparser/datatype/DecimalDataType.java", "src/main/java/com/github/sidhant92/boolparser/datatype/IntegerDataType.java", "src/main/java/com/github/sidhant92/boolparser/datatype/LongDataType.java"]}
{"id": "C05", "title": "Trichotomy and transitivity of comparisons", "statement": "For two numbers (or two strings, two dates, two date-times) exactly one of `a < b`, `a = b`, `a > b` is true, and `<` is transitive. (Across different types this fails: a number and a numeric string, or a version and a version string, can be neither <, = nor >.)", "quantifier": "all pairs/triples of comparable values of the same kind", "why_tests_cant": "A relation over triples of unbounded values.", "anchors": ["src/main/java/com/github/sidhant92/boolparser/operator/comparison/EqualsOperator.java:getComparableDataType", "src/main/java/com/github/sidhant92/boolparser/operator/comparison/NumericOperator.java:getComparableDataType", "src/main/java/com/github/sidhant92/boolparser/constant/DataType.java"]}
{"id": "C06", "title": "String comparison is exact and case-sensitive", "statement": "Two plain strings are `=` iff they are identical character for character, and `<` is lexicographic order of their UTF-16 code units.", "quantifier": "all pairs of strings (that are not dates)", "why_tests_cant": "All strings of every length.", "anchors": ["src/main/java/com/github/sidhant92/boolparser/datatype/StringDataType.java", "src/main/java/com/github/sidhant92/boolparser/operator/comparison/EqualsOperator.java"]}
{"id": "C07", "title": "Dates and date-times compare chronologically, from objects or text", "statement": "A date (LocalDate, date literal, or a string in yyyy-MM-dd form) compares with another date by calendar order, whichever of the representations either side uses; likewise date-times.", "quantifier": "all pairs of dates/date-times and all mixtures of representation", "why_tests_cant": "All pairs of dates; equivalence of representations is a universally quantified statement.", "anchors": ["src/main/java/com/github/sidhant92/boolparser/datatype/DateDataType.java", "src/main/java/com/github/sidhant92/boolparser/datatype/DateTimeDataType.java", "src/main/java/com/github/sidhant92/boolparser/util/ValueUtils.java:getDataType", "src/main/java/com/github/sidhant92/boolparser/util/ValueUtils.java:parseDate"]}
{"id": "C08", "title": "Versions compare component-wise and numerically", "statement": "For dotted numeric versions, `<`,`<=`,`>`,`>=` follow the component-wise numeric order with missing components read as 0 (1.5.9 < 1.5.10, 1.0 <= 1.0.0 and >=).", "quantifier": "all dotted numeric versions of any number of components and digits", "why_tests_cant": "Unbounded component count and digits.", "anchors": ["src/main/java/com/github/sidhant92/boolparser/datatype/VersionDataType.java", "src/main/java/com/github/sidhant92/boolparser/operator/comparison/NumericOperator.java"]}
{"id": "C09", "title": "Range test is the inclusive conjunction of >= and <=", "statement": "`f lo TO hi` evaluates exactly as `f >= lo AND f <= hi` (both bounds inclusive) on present, comparable data, and fails when the field is missing. (The two differ in one case: when f >= lo is false and f <= hi fails, the range test fails and the conjunction is false.)", "quantifier": "all fields, all numeric bounds, all data maps", "why_tests_cant": "Values at and around every boundary.", "anchors": ["src/main/java/com/github/sidhant92/boolparser/application/BooleanExpressionEvaluator.java:evaluateNumericRangeToken", "src/main/java/com/github/sidhant92/boolparser/parser/antlr/BooleanFilterListener.java:mapToExpressionContext"]}
{"id": "C10", "title": "IN is existential equality", "statement": "`f IN (v1,...,vn)` is true iff f equals (in the sense of `=`) some vi; the result is unchanged by permuting or repeating the vi as long as no comparison fails.", "quantifier": "all lists of items of every length, all data", "why_tests_cant": "Unbounded list length and permutations.", "anchors": ["src/main/java/com/github/sidhant92/boolparser/application/BooleanExpressionEvaluator.java:evaluateInToken", "src/main/java/com/github/sidhant92/boolparser/operator/comparison/InOperator.java:evaluate"]}
{"id": "C11", "title": "NOT IN is the complement of IN", "statement": "`f NOT IN (...)` succeeds iff `f IN (...)` does and returns the opposite; it fails with the same failure otherwise.", "quantifier": "all fields, lists and data", "why_tests_cant": "All lists and data.", "anchors": ["src/main/java/com/github/sidhant92/boolparser/parser/antlr/BooleanFilterListener.java:mapInExpressionContext", "src/main/java/com/github/sidhant92/boolparser/application/BooleanExpressionEvaluator.java:evaluateBooleanNode"]}
{"id": "C12", "title": "CONTAINS_ANY / CONTAINS_ALL are set tests on text forms", "statement": "On a List of non-null elements and items of one type, `f CONTAINS_ALL (v..)` is true iff every v has an element of the list with the same text, `f CONTAINS_ANY (v..)` iff at least one has; results are invariant under permutation/duplication of either side; on a value that is not a collection the evaluation fails.", "quantifier": "all lists of plain elements and item lists of every length", "why_tests_cant": "Unbounded lists on both sides.", "anchors": ["src/main/java/com/github/sidhant92/boolparser/operator/comparison/ContainsAllOperator.java:evaluate", "src/main/java/com/github/sidhant92/boolparser/operator/comparison/ContainsAnyOperator.java:evaluate", "src/main/java/com/github/sidhant92/boolparser/application/BooleanExpressionEvaluator.java:evaluateArrayToken"]}
{"id": "C13", "title": "Lists of items of mixed type are rejected", "statement": "CONTAINS_ANY / CONTAINS_ALL with items resolving to more than one data type fails with HeterogeneousArrayException, whatever the list and position of the odd item.", "quantifier": "all item lists and data", "why_tests_cant": "All lists/positions.", "anchors": ["src/main/java/com/github/sidhant92/boolparser/application/BooleanExpressionEvaluator.java:evaluateArrayToken"]}
{"id": "C14", "title": "Missing data is a failure, never a boolean", "statement": "If a field used as an operand of an order comparison, IN, range, or CONTAINS is missing (or null), evaluation of that test is a failure; it is never true or false.", "quantifier": "all fields, operators, other operands, data maps", "why_tests_cant": "All data maps in which the field is missing at any nesting level.", "anchors": ["src/main/java/com/github/sidhant92/boolparser/application/BooleanExpressionEvaluator.java:evaluateComparisonToken", "src/main/java/com/github/sidhant92/boolparser/application/BooleanExpressionEvaluator.java:evaluateInToken", "src/main/java/com/github/sidhant92/boolparser/application/BooleanExpressionEvaluator.java:evaluateNumericRangeToken", "src/main/java/com/github/sidhant92/boolparser/application/BooleanExpressionEvaluator.java:evaluateArrayToken", "src/main/java/com/github/sidhant92/boolparser/application/ArithmeticExpressionEvaluator.java:evaluateFieldToken"]}
{"id": "C15", "title": "Null checks see exactly the missing fields", "statement": "`f = null` is true when f is missing or null and false when f is present with a value whose text is not `null`; `f != null` is the opposite. (For a Double or Float that is NaN or infinite both checks fail.)", "quantifier": "all fields (nested too) and data maps", "why_tests_cant": "All data maps.", "anchors": ["src/main/java/com/github/sidhant92/boolparser/domain/logical/ComparisonNode.java:isNullCheck", "src/main/java/com/github/sidhant92/boolparser/domain/FieldNode.java:isNull", "src/main/java/com/github/sidhant92/boolparser/application/BooleanExpressionEvaluator.java:evaluateComparisonToken"]}
{"id": "C16", "title": "Dotted field names walk nested maps", "statement": "A field `k1.k2...kn` resolves to the value found by following the keys through nested maps, and to missing if any step is absent, null or not a map; depth is unlimited.", "quantifier": "all key paths of any length and all data maps of any nesting", "why_tests_cant": "Unbounded depth.", "anchors": ["src/main/java/com/github/sidhant92/boolparser/util/ValueUtils.java:getValueFromMap"]}
{"id": "C17", "title": "Only referenced fields matter", "statement": "Two data maps that agree on every field an expression mentions give the same outcome (value or failure).", "quantifier": "all expressions, all pairs of data maps", "why_tests_cant": "Non-interference is a property of pairs of executions over all data.", "anchors": ["src/main/java/com/github/sidhant92/boolparser/application/BooleanExpressionEvaluator.java:evaluateToken", "src/main/java/com/github/sidhant92/boolparser/application/ArithmeticExpressionEvaluator.java:evaluateToken", "src/main/java/com/github/sidhant92/boolparser/util/ValueUtils.java:getValueFromMap"]}
{"id": "C18", "title": "Integer addition and multiplication are exact and normalised", "statement": "For Integer/Long operands `a + b` and `a * b` give the mathematical result whenever it fits in 64 bits, as an Integer iff it fits in 32 bits; otherwise the 64-bit two's complement result.", "quantifier": "all Integers and Longs", "why_tests_cant": "2^128 operand pairs; overflow boundaries.", "anchors": ["src/main/java/com/github/sidhant92/boolparser/operator/arithmetic/AddOperator.java:evaluate", "src/main/java/com/github/sidhant92/boolparser/operator/arithmetic/MultiplyOperator.java:evaluate", "src/main/java/com/github/sidhant92/boolparser/util/ValueUtils.java:castLong"]}
{"id": "C19", "title": "Integer subtraction", "statement": "For Integer/Long operands `a - b` gives the mathematical difference. (False of the code: two Integers are subtracted in 32 bits and wrap silently; exact when the difference fits the operand width.)", "quantifier": "all Integers and Longs", "why_tests_cant": "Overflow boundaries over all pairs.", "anchors": ["src/main/java/com/github/sidhant92/boolparser/operator/arithmetic/SubtractOperator.java:evaluate"]}
{"id": "C20", "title": "Decimal +, -, * are exact", "statement": "If one operand of +,-,* is a BigDecimal and the other any number the result is the exact mathematical result, for any precision and scale; + and * are commutative, and associative in value if a BigDecimal takes part in both partial results.", "quantifier": "all BigDecimals/Integers/Longs", "why_tests_cant": "Unbounded precision.", "anchors": ["src/main/java/com/github/sidhant92/boolparser/operator/arithmetic/AddOperator.java", "src/main/java/com/github/sidhant92/boolparser/operator/arithmetic/SubtractOperator.java", "src/main/java/com/github/sidhant92/boolparser/operator/arithmetic/MultiplyOperator.java"]}
{"id": "C21", "title": "Division truncates towards zero at three decimals", "statement": "`a / b` with b != 0 is a/b truncated towards zero to three decimals: never larger in magnitude, less than 0.001 away, same sign; it is an Integer iff that value is integral (and then must fit 32 bits, otherwise evaluation fails); `a / 0` always fails.", "quantifier": "all numeric operands of any precision", "why_tests_cant": "All operand pairs.", "anchors": ["src/main/java/com/github/sidhant92/boolparser/operator/arithmetic/DivideOperator.java:evaluate", "src/main/java/com/github/sidhant92/boolparser/util/ValueUtils.java:castDecimal"]}
{"id": "C22", "title": "Modulus law", "statement": "`a % b` for whole numbers with b != 0 has |r| < |b|, the sign of a (or 0), and a - r divisible by b; `a % 0` fails; a decimal operand is rejected.", "quantifier": "all Integer/Long operands", "why_tests_cant": "All operand pairs and sign combinations.", "anchors": ["src/main/java/com/github/sidhant92/boolparser/operator/arithmetic/ModulusOperator.java:evaluate"]}
{"id": "C23", "title": "Unary minus negates", "statement": "`-x` is the mathematical negation for every Integer except -2^31, every Long except -2^63 and every BigDecimal; applying it twice returns x always.", "quantifier": "all numeric values", "why_tests_cant": "All values incl. boundary.", "anchors": ["src/main/java/com/github/sidhant92/boolparser/operator/arithmetic/UnaryOperator.java:evaluate"]}
{"id": "C24", "title": "Exponent is exact on whole numbers", "statement": "`a ^ b` for Integers with b >= 0 returns exactly a^b as an Integer whenever a^b fits 32 bits (relying on the documented exactness of Math.pow).", "quantifier": "all Integers a, b >= 0", "why_tests_cant": "All pairs.", "anchors": ["src/main/java/com/github/sidhant92/boolparser/operator/arithmetic/ExponentOperator.java:evaluate", "src/main/java/com/github/sidhant92/boolparser/util/ValueUtils.java:castDecimal"]}
{"id": "C25", "title": "`+` with text concatenates", "statement": "If either operand of `+` is a text that is not read as a date or date-time (C84), a Boolean or a Version and both are of addable types, the result is the concatenation of the operands' texts, left first; concatenation is associative, unless one of the two partial results is read as a date.", "quantifier": "all strings/values", "why_tests_cant": "All strings.", "anchors": ["src/main/java/com/github/sidhant92/boolparser/operator/arithmetic/AddOperator.java:evaluate"]}
{"id": "C26", "title": "MIN and MAX return a least / greatest element", "statement": "MIN/MAX over two or more numbers returns a value equal to one of the items and <= / >= all of them, independent of item order, for Integers, for BigDecimal mixtures with results in 32-bit range, and for Longs up to 2^53 in magnitude (beyond, the code loses precision).", "quantifier": "all item lists of length >= 2", "why_tests_cant": "Unbounded lists; permutation invariance.", "anchors": ["src/main/java/com/github/sidhant92/boolparser/function/arithmetic/MinFunction.java", "src/main/java/com/github/sidhant92/boolparser/function/arithmetic/MaxFunction.java", "src/main/java/com/github/sidhant92/boolparser/util/ValueUtils.java:castDecimal"]}
{"id": "C27", "title": "SUM is the mathematical sum, order independent", "statement": "SUM over two or more numbers returns the mathematical sum (whole numbers: when it is at most 2^53 in magnitude and no 64-bit overflow; with a BigDecimal present: always exact, failing when integral and beyond 32 bits); invariant under permutation.", "quantifier": "all item lists of length >= 2", "why_tests_cant": "Unbounded lists.", "anchors": ["src/main/java/com/github/sidhant92/boolparser/function/arithmetic/SumFunction.java"]}
{"id": "C28", "title": "AVG and MEAN", "statement": "AVG and MEAN agree on every input; when they return for whole numbers the result is exactly sum/n; with a BigDecimal present it is sum/n truncated to three decimals. (AVG of whole numbers fails when sum/n has more than two decimals.)", "quantifier": "all item lists of length >= 2", "why_tests_cant": "Unbounded lists.", "anchors": ["src/main/java/com/github/sidhant92/boolparser/function/arithmetic/AvgFunction.java", "src/main/java/com/github/sidhant92/boolparser/function/arithmetic/MeanFunction.java"]}
{"id": "C29", "title": "MEDIAN", "statement": "MEDIAN of an odd number of items is the middle element of the sorted list; of an even number, the mean of the two middle ones truncated to two decimals; invariant under permutation of the items.", "quantifier": "all item lists of length >= 2", "why_tests_cant": "Unbounded lists, permutations.", "anchors": ["src/main/java/com/github/sidhant92/boolparser/function/arithmetic/MedianFunction.java"]}
{"id": "C30", "title": "MODE", "statement": "MODE returns an item whose number of occurrences (as equal Java objects) is maximal; of several such items, the one that first reaches this number counting from the left, so the first item if all are different.", "quantifier": "all item lists of length >= 2", "why_tests_cant": "Unbounded lists.", "anchors": ["src/main/java/com/github/sidhant92/boolparser/function/arithmetic/ModeFunction.java"]}
{"id": "C31", "title": "LEN", "statement": "LEN of a string is its number of UTF-16 units; LEN of a list with at least two elements is its element count. (A one-element list of a string gives the string's length and an empty list fails.)", "quantifier": "all strings and lists", "why_tests_cant": "Unbounded.", "anchors": ["src/main/java/com/github/sidhant92/boolparser/function/arithmetic/LenFunction.java", "src/main/java/com/github/sidhant92/boolparser/function/FunctionEvaluatorService.java"]}
{"id": "C32", "title": "INT truncates towards zero", "statement": "INT(x) is x truncated towards zero for every number whose truncation fits 32 bits.", "quantifier": "all numeric values", "why_tests_cant": "All values and signs.", "anchors": ["src/main/java/com/github/sidhant92/boolparser/function/arithmetic/IntFunction.java"]}
{"id": "C33", "title": "DAYS_ELAPSED counts calendar days", "statement": "DAYS_ELAPSED(d) is the number of calendar days from d to today: 0 for today, additive (moving d one day later lowers it by one), negative for future dates, same for LocalDate and ISO text.", "quantifier": "all dates and all current dates", "why_tests_cant": "All pairs of dates including leap years and month ends.", "anchors": ["src/main/java/com/github/sidhant92/boolparser/function/arithmetic/DaysElapsedFunction.java"]}
{"id": "C34", "title": "Functions reject wrong argument counts and types uniformly", "statement": "MIN, MAX, SUM, AVG, MEAN, MEDIAN, MODE fail unless they get at least two resolved items, all numeric; INT and DAYS_ELAPSED fail unless they get exactly one; every function fails on an empty resolved list.", "quantifier": "all functions and all item lists", "why_tests_cant": "All lists.", "anchors": ["src/main/java/com/github/sidhant92/boolparser/function/FunctionEvaluatorService.java:evaluateArithmeticFunction"]}
{"id": "C35", "title": "A boolean expression means what it says (end to end)", "statement": "For every expression built from comparisons of fields with literals or fields, AND, OR, NOT(...) and parentheses, written out as text, evaluate(text, data) returns the outcome that the textbook meaning of the expression assigns, for every nesting.", "quantifier": "all expressions of the fragment at every depth, all data maps", "why_tests_cant": "Infinitely many expressions; the stack-based tree builder can go wrong at any nesting combination.", "anchors": ["src/main/java/com/github/sidhant92/boolparser/parser/antlr/BooleanFilterListener.java:exitBinaryExpression", "src/main/java/com/github/sidhant92/boolparser/parser/antlr/BooleanFilterListener.java:mapComparatorExpressionContext", "src/main/java/com/github/sidhant92/boolparser/parser/antlr/BooleanFilterListener.java:exitNotExpression", "src/main/java/com/github/sidhant92/boolparser/application/BooleanExpressionEvaluator.java:evaluate", "src/main/java/resources/BooleanExpression.g4:expression"]}
{"id": "C36", "title": "A parenthesised arithmetic expression means what it says (end to end)", "statement": "For every arithmetic expression over literals and fields with + - * / % ^, written with parentheses around every compound operand, evaluate(text, data) returns the value obtained by evaluating bottom-up, left operand first.", "quantifier": "all arithmetic expressions at every depth, all data maps", "why_tests_cant": "Infinitely many expressions.", "anchors": ["src/main/java/com/github/sidhant92/boolparser/parser/antlr/BooleanFilterListener.java:mapArithmeticExpressionContext", "src/main/java/com/github/sidhant92/boolparser/application/ArithmeticExpressionEvaluator.java:evaluateArithmeticToken", "src/main/java/resources/BooleanExpression.g4:expression"]}
{"id": "C37", "title": "Operator precedence and associativity", "statement": "Unparenthesised chains group by the fixed ladder comparison > unary minus > ^ > / > * > % > + > - > AND = OR, every binary operator left-associative: printing any tree with only the parentheses this ladder requires and parsing it back returns the tree.", "quantifier": "all expression trees", "why_tests_cant": "Infinitely many trees; every operator pair and nesting.", "anchors": ["src/main/java/resources/BooleanExpression.g4:expression", "src/main/java/com/github/sidhant92/boolparser/parser/antlr/BooleanExpressionParser.java:expression"]}
{"id": "C38", "title": "White space is insignificant between tokens", "statement": "Adding or removing blanks, tabs or line breaks between two tokens that stay separate does not change the token sequence, hence not the parse nor the result.", "quantifier": "all token sequences and all white space insertions", "why_tests_cant": "All inputs and positions.", "anchors": ["src/main/java/resources/BooleanExpression.g4:WS", "src/main/java/com/github/sidhant92/boolparser/parser/antlr/BooleanExpressionLexer.java"]}
{"id": "C39", "title": "Quoted strings are taken verbatim", "statement": "A string literal in single (double) quotes denotes exactly the characters between the quotes, for every content without that quote character, including keywords, operators, commas, parentheses and line breaks.", "quantifier": "all strings", "why_tests_cant": "All strings.", "anchors": ["src/main/java/resources/BooleanExpression.g4:WORD", "src/main/java/com/github/sidhant92/boolparser/util/ValueUtils.java:convertValue"]}
{"id": "C40", "title": "Whole-number literals", "statement": "A digit sequence denotes the mathematical number: an Integer if it is at most 2147483647, a Long if at most 9223372036854775807, and the expression fails beyond that; leading zeros do not matter.", "quantifier": "all digit sequences", "why_tests_cant": "All lengths and boundaries.", "anchors": ["src/main/java/com/github/sidhant92/boolparser/util/ValueUtils.java:getNumericDataType", "src/main/java/com/github/sidhant92/boolparser/util/ValueUtils.java:convertValue", "src/main/java/com/github/sidhant92/boolparser/parser/antlr/BooleanFilterListener.java:getDataType"]}
{"id": "C41", "title": "Keywords in any letter case", "statement": "Operators and function names are case-insensitive. (False of the code: only all-upper and all-lower spellings are keywords; the all-upper and all-lower spellings are interchangeable everywhere.)", "quantifier": "all expressions", "why_tests_cant": "All token sequences.", "anchors": ["src/main/java/resources/BooleanExpression.g4:IN..DAYS_ELAPSED"]}
{"id": "C42", "title": "Default field stands for the omitted operand", "statement": "With default field f, an expression in which the left operand of a comparison is omitted evaluates exactly like the same expression with f written there.", "quantifier": "all such expressions, fields, data", "why_tests_cant": "All expressions.", "anchors": ["src/main/java/com/github/sidhant92/boolparser/parser/antlr/BooleanFilterListener.java:mapTypesExpressionContext", "src/main/java/com/github/sidhant92/boolparser/parser/antlr/BooleanFilterListener.java:mapTypesExpressionContextField"]}
{"id": "C43", "title": "Operand order of AND does not decide whether the expression is accepted", "statement": "`X AND Y` is accepted iff `Y AND X` is. (False of the code: `a IN (1) AND b = 5` is rejected, `b = 5 AND a IN (1)` is accepted. Holds when both sides are comparisons or parenthesised boolean combinations of them.)", "quantifier": "all pairs of sub-expressions", "why_tests_cant": "All pairs.", "anchors": ["src/main/java/com/github/sidhant92/boolparser/parser/antlr/BooleanFilterListener.java:mapComparatorExpressionContext", "src/main/java/com/github/sidhant92/boolparser/parser/antlr/BooleanFilterListener.java:exitBinaryExpression"]}
{"id": "C44", "title": "Function arguments and list items are evaluated as written", "statement": "A function call evaluates to the function applied to the values of its argument expressions as written, and IN, CONTAINS_ALL and CONTAINS_ANY compare with the values of their items as written. (False of the code for arguments and items with three or more arithmetic operands: `min(100, 2 + 3*4)` sees 16, and so does `a IN (2 + 3*4)`. Holds for literals, fields, two-operand arithmetic and nested functions of those.)", "quantifier": "all argument and item lists", "why_tests_cant": "All nestings.", "anchors": ["src/main/java/com/github/sidhant92/boolparser/parser/antlr/BooleanFilterListener.java:getArrayElements", "src/main/java/com/github/sidhant92/boolparser/parser/antlr/BooleanFilterListener.java:mapContextToNode", "src/main/java/com/github/sidhant92/boolparser/parser/antlr/BooleanFilterListener.java:mapArithmeticExpressionContext"]}
{"id": "C45", "title": "The caching parser is transparent", "statement": "Whatever sequence of parse requests preceded and whatever entries the cache evicted, a request to the caching parser returns what the plain parser returns. (False of the code: the key glues expression and default field with `_`, so different requests can collide; holds for histories whose default fields are non-empty and free of `_`, or all absent.)", "quantifier": "all request histories, all eviction schedules, all cache sizes", "why_tests_cant": "Histories and eviction schedules are unbounded.", "anchors": ["src/main/java/com/github/sidhant92/boolparser/parser/antlr/CachedBoolParser.java:parseExpression"]}
{"id": "C46", "title": "Failed parses are not remembered", "statement": "A request that fails leaves the cache without an entry for it; after any history every cached entry is the successful result of some earlier request with that key, and the number of entries never exceeds the configured maximum once eviction has run.", "quantifier": "all histories", "why_tests_cant": "All histories.", "anchors": ["src/main/java/com/github/sidhant92/boolparser/parser/antlr/CachedBoolParser.java"]}
{"id": "C47", "title": "Evaluation has no memory", "statement": "The result of an evaluation depends only on expression, default field and data, not on what was evaluated before by the same or another evaluator; data maps and nodes are not modified.", "quantifier": "all histories of evaluations and evaluator constructions", "why_tests_cant": "All histories.", "anchors": ["src/main/java/com/github/sidhant92/boolparser/application/BooleanExpressionEvaluator.java:evaluate", "src/main/java/com/github/sidhant92/boolparser/application/ArithmeticExpressionEvaluator.java:evaluate", "src/main/java/com/github/sidhant92/boolparser/operator/OperatorFactory.java", "src/main/java/com/github/sidhant92/boolparser/datatype/DataTypeFactory.java"]}
{"id": "C48", "title": "Evaluator construction is harmless to others", "statement": "In any interleaving of evaluator constructions by several threads, a thread that finished its own construction finds every operator, function and data type registered and behaving as documented. A custom data type registered by the user stays in force. (The last part is false: constructing any evaluator resets the registry.)", "quantifier": "all interleavings of any number of threads", "why_tests_cant": "All schedules.", "anchors": ["src/main/java/com/github/sidhant92/boolparser/operator/OperatorFactory.java:initialize", "src/main/java/com/github/sidhant92/boolparser/datatype/DataTypeFactory.java:initialize", "src/main/java/com/github/sidhant92/boolparser/function/FunctionFactory.java:initialize", "src/main/java/com/github/sidhant92/boolparser/operator/OperatorService.java"]}
{"id": "C49", "title": "Every text input is tokenised completely", "statement": "For every input text the tokeniser terminates, and the texts of its tokens, in order, with white space and unrecognised characters between them, make up the input; every token is non-empty.", "quantifier": "all input texts", "why_tests_cant": "All texts.", "anchors": ["src/main/java/com/github/sidhant92/boolparser/parser/antlr/BooleanExpressionLexer.java", "src/main/java/resources/BooleanExpression.g4:lexer rules"]}
{"id": "C50", "title": "Numeric text and numbers are interchangeable in order comparisons", "statement": "A field holding a String that is the text of a number compares with numbers under <,<=,>,>= exactly as the number itself; in particular a BigDecimal's own text denotes the same number. (False of the code for a text that the other operand's type cannot hold: a fraction against an Integer or Long fails with InvalidDataType; holds whenever the other number's type can hold the text's number, always for BigDecimal.)", "quantifier": "all numbers and their texts", "why_tests_cant": "Round trip over all values and notations (plain, scientific).", "anchors": ["src/main/java/com/github/sidhant92/boolparser/datatype/DecimalDataType.java", "src/main/java/com/github/sidhant92/boolparser/datatype/IntegerDataType.java", "src/main/java/com/github/sidhant92/boolparser/datatype/LongDataType.java", "src/main/java/com/github/sidhant92/boolparser/operator/comparison/NumericOperator.java"]}
{"id": "C51", "title": "Results stay inside their Java types", "statement": "If all Integers and Longs in literals and data are within range, every Integer result is within 32 bits and every Long result within 64 bits. This holds of every text, also of one outside the grammar, with no other condition than that LEN counts nothing larger than a Java collection.", "quantifier": "all arithmetic expressions and data", "why_tests_cant": "Invariant over unbounded nesting.", "anchors": ["src/main/java/com/github/sidhant92/boolparser/application/ArithmeticExpressionEvaluator.java:evaluateToken", "src/main/java/com/github/sidhant92/boolparser/operator/arithmetic", "src/main/java/com/github/sidhant92/boolparser/function/arithmetic"]}
{"id": "C52", "title": "A bare boolean field is its value", "statement": "evaluate(\"f\", data) for a boolean field f returns the field's value. (False of the code: it is always false; `NOT f` uses the value.)", "quantifier": "all fields and data", "why_tests_cant": "All data.", "anchors": ["src/main/java/com/github/sidhant92/boolparser/application/BooleanExpressionEvaluator.java:evaluateToken", "src/main/java/com/github/sidhant92/boolparser/parser/antlr/BooleanFilterListener.java:exitParse"]}
{"id": "C53", "title": "An arithmetic result is not silently read as false", "statement": "Evaluating an expression whose top node is arithmetic (e.g. `a > 5 + 3`, which groups as `(a > 5) + 3`) with the boolean evaluator fails. (False of the code: it returns Success(false) whatever the data.)", "quantifier": "all arithmetic-topped expressions and data", "why_tests_cant": "All data.", "anchors": ["src/main/java/com/github/sidhant92/boolparser/application/BooleanExpressionEvaluator.java:evaluateToken"]}
{"id": "C54", "title": "Field order in the data map is irrelevant", "statement": "The iteration order of the data map (and of nested maps) does not change the outcome for operands that are scalars.", "quantifier": "all permutations of data map entries", "why_tests_cant": "All permutations.", "anchors": ["src/main/java/com/github/sidhant92/boolparser/util/ValueUtils.java:getValueFromMap"]}
{"id": "C55", "title": "Boolean algebra laws hold for written expressions", "statement": "For expressions of the fragment of C35 De Morgan's laws, double negation, associativity and (in the absence of failures) commutativity, distributivity hold between the evaluated texts.", "quantifier": "all expressions of the fragment and all data", "why_tests_cant": "Infinitely many expressions and data.", "anchors": ["src/main/java/com/github/sidhant92/boolparser/application/BooleanExpressionEvaluator.java:evaluateBooleanNode", "src/main/java/com/github/sidhant92/boolparser/parser/antlr/BooleanFilterListener.java:exitNotExpression"]}
{"id": "C56", "title": "The published grammar is exactly what is accepted", "statement": "A text is accepted (parsed without a syntax error, by parseExpression and by both evaluators) if and only if it can be cut into tokens whose kinds form an `expression` of the published grammar, where the grammar is read as a plain context-free grammar without precedences. In particular parentheses in accepted texts are balanced, and acceptance does not depend on the data or the default field.", "quantifier": "all texts, all data, all default fields", "why_tests_cant": "Both directions over infinitely many texts; the parser resolves an ambiguous left-recursive grammar by precedence, and only an argument by induction shows that it neither loses nor adds a sentence.", "anchors": ["src/main/java/resources/BooleanExpression.g4:expression", "src/main/java/com/github/sidhant92/boolparser/parser/antlr/BoolParser.java:parseExpression"]}
{"id": "C57", "title": "Parentheses around, and NOT before, a whole expression", "statement": "Putting parentheses around a whole accepted expression changes neither the parsed node nor the outcome of any evaluation, and `NOT (` ... `)` around an accepted compound expression yields the opposite answer and the same failures; this holds for every accepted text, also those the parser groups unexpectedly, unless the text ends with an operator (its last operand is missing).", "quantifier": "all accepted texts not ending with an operator, all data, all default fields", "why_tests_cant": "All texts of the grammar, including ones nobody would write; the listener works with a mutable operand stack.", "anchors": ["src/main/java/com/github/sidhant92/boolparser/parser/antlr/BooleanFilterListener.java:exitNotExpression", "src/main/java/com/github/sidhant92/boolparser/parser/antlr/BooleanFilterListener.java:exitParse"]}
{"id": "C59", "title": "An evaluation depends only on text, data and default field", "statement": "If neither DAYS_ELAPSED nor `^` occurs in a text, the outcome of both evaluators is a function of the text, the data and the default field. The clock matters only if DAYS_ELAPSED occurs, the platform's power function only if `^` occurs.", "quantifier": "all accepted texts (for the others see C82), all data, all default fields, all dates, all power functions", "why_tests_cant": "A test runs on one day on one platform; the claim is about every text and every clock.", "anchors": ["src/main/java/com/github/sidhant92/boolparser/application/BooleanExpressionEvaluator.java:evaluate", "src/main/java/com/github/sidhant92/boolparser/function/arithmetic/DaysElapsedFunction.java:evaluate", "src/main/java/com/github/sidhant92/boolparser/operator/arithmetic/ExponentOperator.java:evaluate"]}
{"id": "C60", "title": "Adding fields never changes an answer", "statement": "If the word null does not occur in a text (nor is the default field), an answer given with some data is also given when further fields are added to the data, and more generally with any data that has the same values under the names the text mentions. Only failures can turn into answers.", "quantifier": "all texts without null, all data, all added fields", "why_tests_cant": "All texts and all ways to extend the data.", "anchors": ["src/main/java/com/github/sidhant92/boolparser/application/BooleanExpressionEvaluator.java:evaluateComparisonToken", "src/main/java/com/github/sidhant92/boolparser/util/ValueUtils.java:getValueFromMap"]}
{"id": "C62", "title": "Fields may be renamed", "statement": "If the lexemes of two texts correspond one by one, each the same or a field name under which the second data map holds the same value as the first map under the first name, both evaluations have the same outcome. In particular data may be moved into or out of nested maps if the names are changed accordingly.", "quantifier": "all accepted texts, all consistent renamings, all data, all default fields", "why_tests_cant": "All texts and all renamings.", "anchors": ["src/main/java/com/github/sidhant92/boolparser/parser/antlr/BooleanFilterListener.java:mapTypesExpressionContext", "src/main/java/com/github/sidhant92/boolparser/util/ValueUtils.java:getValueFromMap"]}
{"id": "C58", "title": "Well typed expressions do not fail", "statement": "Given a schema saying which fields the data has and of which types they are (whole number, number, text, truth value, date, date-time, version, lists), an expression whose comparisons, lists, null checks, ranges, + - *, % by a non-zero literal, negation, LEN, MIN, MAX and SUM fit these types is evaluated without failure for all data that conform to the schema, and an arithmetic expression gives a value of its type.", "quantifier": "all schemas, all well typed expressions of any size, all texts of them, all conforming data", "why_tests_cant": "A statement about all values that the schema allows and all expressions that type check.", "anchors": ["src/main/java/com/github/sidhant92/boolparser/application/BooleanExpressionEvaluator.java:evaluate", "src/main/java/com/github/sidhant92/boolparser/application/ArithmeticExpressionEvaluator.java:evaluate", "src/main/java/com/github/sidhant92/boolparser/operator/OperatorService.java:evaluateLogicalOperator"]}
{"id": "C61", "title": "Answers follow a compositional semantics", "statement": "There is a set of rules, written without reference to the implementation, that gives the meaning of literals, fields, operators, functions, comparisons, lists and connectives in terms of integers, rationals, texts, dates and versions. Whenever the rules give an expression a meaning, evaluating any text of the expression succeeds with it. The rules never give two truth values.", "quantifier": "all expressions of any size and depth, all texts of them, all data", "why_tests_cant": "The claim composes all operators over all values and all nestings.", "anchors": ["src/main/java/com/github/sidhant92/boolparser/application/BooleanExpressionEvaluator.java:evaluate", "src/main/java/com/github/sidhant92/boolparser/application/ArithmeticExpressionEvaluator.java:evaluate", "src/main/java/com/github/sidhant92/boolparser/operator/OperatorService.java:evaluateArithmeticOperator", "src/main/java/com/github/sidhant92/boolparser/function/FunctionEvaluatorService.java:evaluateArithmeticFunction"]}
{"id": "C63", "title": "\"Data not found\" blames a missing name", "statement": "If evaluating a condition fails because data were not found, the data map has no value for one of the field names in the text or for the default field. Only if the text contains NOT or consists of a single operand can the missing name be the text of a literal or keyword instead. For the arithmetic evaluator the missing name is always a field named in the text. Hence with a value for every named field the failure cannot occur.", "quantifier": "all accepted texts (for the others see C82), all data, all default fields", "why_tests_cant": "All texts, including those not grouped as written, and all data.", "anchors": ["src/main/java/com/github/sidhant92/boolparser/application/BooleanExpressionEvaluator.java", "src/main/java/com/github/sidhant92/boolparser/application/ArithmeticExpressionEvaluator.java", "src/main/java/com/github/sidhant92/boolparser/util/ValueUtils.java:getValueFromMap"]}
{"id": "C64", "title": "How a text can be refused", "statement": "A text within the grammar that fails before data are looked at fails in one of four ways: as an invalid expression, with an empty stack, with a class cast, or with a number format failure; the last only if the text contains a whole number beyond 64 bits. The failure is the same for all data and in both evaluators.", "quantifier": "all texts within the grammar, all default fields, all data", "why_tests_cant": "All texts and all shapes of parse trees.", "anchors": ["src/main/java/com/github/sidhant92/boolparser/parser/antlr/BooleanFilterListener.java", "src/main/java/com/github/sidhant92/boolparser/util/ValueUtils.java:convertValue"]}
{"id": "C65", "title": "The parsed node mirrors the text", "statement": "parseExpression of a text of a condition or arithmetic expression returns the tree of operations that was written: operands as fields (with their names) or typed literal values, operators, lists and connectives in place, parentheses without trace, an omitted operand as the default field. Texts of one condition have equal nodes, and the default field shows only where an operand is omitted.", "quantifier": "all conditions and arithmetic expressions the parser reads as written, all texts of them, all default fields", "why_tests_cant": "All expressions of any size and shape.", "anchors": ["src/main/java/com/github/sidhant92/boolparser/parser/antlr/BoolParser.java:parseExpression", "src/main/java/com/github/sidhant92/boolparser/parser/antlr/BooleanFilterListener.java"]}
{"id": "C66", "title": "A value may be written in place of a field", "statement": "If the data hold for a field the value of a literal, writing the literal in place of the field as operand, argument or list item, for any number of fields and occurrences at once, changes no result of either evaluator.", "quantifier": "all conditions and expressions, all texts of them, all data, all sets of replaced fields", "why_tests_cant": "All expressions and all data.", "anchors": ["src/main/java/com/github/sidhant92/boolparser/application/BooleanExpressionEvaluator.java", "src/main/java/com/github/sidhant92/boolparser/application/ArithmeticExpressionEvaluator.java", "src/main/java/com/github/sidhant92/boolparser/util/ValueUtils.java"]}
{"id": "C67", "title": "Polynomials over whole numbers", "statement": "An expression of Integer/Long fields, whole number literals, +, * and parentheses gives its mathematical value if that fits 64 bits, even when intermediate results do not, and the 64-bit two's complement number otherwise. Hence two such expressions that are equal as integers (operands exchanged or regrouped, factors multiplied out) always give equal results.", "quantifier": "all polynomials of any size, all texts, all whole numbers, overflowing or not", "why_tests_cant": "Unbounded expressions over 2^64 values per field.", "anchors": ["src/main/java/com/github/sidhant92/boolparser/operator/arithmetic/AddOperator.java:evaluate", "src/main/java/com/github/sidhant92/boolparser/operator/arithmetic/MultiplyOperator.java:evaluate", "src/main/java/com/github/sidhant92/boolparser/util/ValueUtils.java:castLong"]}
{"id": "C68", "title": "A test against a list can be split", "statement": "`f IN (xs, ys)` has the outcome of `f IN (xs) OR f IN (ys)`, `f NOT IN (xs, ys)` that of `f NOT IN (xs) AND f NOT IN (ys)`; CONTAINS_ALL splits with AND and CONTAINS_ANY with OR if the items are of one type. The items of the second part must have values, since a list is evaluated before it is searched.", "quantifier": "all lists of any length and any split, all data including failing comparisons", "why_tests_cant": "All lists, splits and data.", "anchors": ["src/main/java/com/github/sidhant92/boolparser/operator/comparison/InOperator.java:evaluate", "src/main/java/com/github/sidhant92/boolparser/operator/comparison/ContainsAllOperator.java:evaluate", "src/main/java/com/github/sidhant92/boolparser/operator/comparison/ContainsAnyOperator.java:evaluate", "src/main/java/com/github/sidhant92/boolparser/application/BooleanExpressionEvaluator.java"]}
{"id": "C69", "title": "Conditions about numbers", "statement": "A condition of comparisons, ranges and IN tests between number fields and number literals, combined with NOT, AND and OR, never fails and is true iff what it says is true of the mathematical numbers. It does not matter as which number type the data hold them, and two conditions that say the same of the numbers give the same answers.", "quantifier": "all such conditions of any size, all texts of them, all numbers in all representations", "why_tests_cant": "All conditions over infinitely many numbers and representations.", "anchors": ["src/main/java/com/github/sidhant92/boolparser/application/BooleanExpressionEvaluator.java", "src/main/java/com/github/sidhant92/boolparser/operator/OperatorService.java:evaluateLogicalOperator", "src/main/java/com/github/sidhant92/boolparser/util/ValueUtils.java"]}
{"id": "C70", "title": "The tokeniser shipped as a compiled automaton implements the published lexical rules", "statement": "The generated lexer contains no code for the lexical rules, only an automaton stored as a string. For every input text, decoding that string and running the automaton as the ANTLR runtime does (longest match, first rule on ties, non-greedy string rules, skipped white space, recovery by dropping characters) succeeds and yields exactly the tokens the published lexical rules describe: same texts, same kinds, in order, with nothing but white space and unrecognised characters between them.", "quantifier": "all input texts", "why_tests_cant": "An automaton with 465 states over all Unicode texts; a wrong interval or transition shows only on particular characters in particular contexts.", "anchors": ["src/main/java/com/github/sidhant92/boolparser/parser/antlr/BooleanExpressionLexer.java:_serializedATN", "src/main/java/resources/BooleanExpression.g4:lexer rules"]}
{"id": "C71", "title": "Values of different kinds are never compared silently", "statement": "Comparing a truth value, a number, a date and a date-time (objects, or texts read as such, see C84) with a value of another of these four kinds fails with InvalidDataType under each of =, !=, <, <=, >, >=, whichever operand comes first; it never returns a boolean.", "quantifier": "all operators, all texts of such comparisons, all pairs of values of different kinds", "why_tests_cant": "All pairs of values; a number or date whose printed form happens to coerce to the other kind would slip through.", "anchors": ["src/main/java/com/github/sidhant92/boolparser/operator/comparison/NumericOperator.java:validate", "src/main/java/com/github/sidhant92/boolparser/operator/comparison/EqualsOperator.java:evaluate", "src/main/java/com/github/sidhant92/boolparser/constant/ContainerDataType.java:getValue", "src/main/java/com/github/sidhant92/boolparser/datatype/"]}
{"id": "C72", "title": "Truth values and texts under =", "statement": "`f = true` is the value of a Boolean field f and `f = false` the opposite; the order operators fail when an operand is a Boolean. A text that is neither a date nor a date-time (C84) equals another value iff it is its printed form character for character: the text TRUE does not equal true, the text 5.0 does not equal 5.", "quantifier": "all texts of such comparisons, all data", "why_tests_cant": "All texts against all values.", "anchors": ["src/main/java/com/github/sidhant92/boolparser/operator/comparison/EqualsOperator.java:evaluate", "src/main/java/com/github/sidhant92/boolparser/datatype/BooleanDataType.java", "src/main/java/com/github/sidhant92/boolparser/datatype/StringDataType.java", "src/main/java/com/github/sidhant92/boolparser/constant/DataType.java"]}
{"id": "C73", "title": "Error recovery leaves correct texts alone", "statement": "The parser never stops at a syntax error, it repairs and goes on. On every text of the grammar it prints no error and parse/evaluate give exactly what the grammar prescribes; on every text outside the grammar it ends and prints at least one error.", "quantifier": "all texts, default fields, data", "why_tests_cant": "Needs every text: a recovery step taken on one correct text, or silently on one wrong text, refutes it.", "anchors": ["src/main/java/com/github/sidhant92/boolparser/parser/antlr/BoolParser.java:parseExpression", "src/main/java/com/github/sidhant92/boolparser/parser/antlr/BooleanExpressionParser.java:parse", "src/main/java/com/github/sidhant92/boolparser/parser/antlr/BooleanExpressionParser.java:expression", "src/main/java/resources/BooleanExpression.g4"]}
{"id": "C74", "title": "Trailing input is ignored", "statement": "A complete expression followed by anything not beginning with an operator (a closing parenthesis, another name or literal, a comma, ...) is parsed and evaluated as if the text ended after the expression; only a message on the console tells. So a malformed text is not always refused.", "quantifier": "all expressions, all trailing texts, all data", "why_tests_cant": "Any expression with any rest; the exceptions (names continued by a range or list, signs) have to be found exactly.", "anchors": ["src/main/java/com/github/sidhant92/boolparser/parser/antlr/BoolParser.java:parseExpression", "src/main/java/com/github/sidhant92/boolparser/parser/antlr/BooleanExpressionParser.java:parse"]}
{"id": "C75", "title": "Missing closing parentheses at the end are supplied", "statement": "A text that ends with an operand and lacks only closing parentheses at its end is parsed and evaluated as if they were there; only a message on the console tells. An open function call may instead be refused as an invalid expression. Minus signs must stand directly before literals.", "quantifier": "all texts, any number of missing parentheses, all data", "why_tests_cant": "Any nesting of groups, lists and functions left open; the exceptions (function calls, signs) have to be found exactly.", "anchors": ["src/main/java/com/github/sidhant92/boolparser/parser/antlr/BoolParser.java:parseExpression", "src/main/java/com/github/sidhant92/boolparser/parser/antlr/BooleanExpressionParser.java:parse", "src/main/java/com/github/sidhant92/boolparser/parser/antlr/BooleanExpressionParser.java:wordlist", "src/main/java/com/github/sidhant92/boolparser/parser/antlr/BooleanFilterListener.java"]}
{"id": "C76", "title": "How any text can be refused", "statement": "Any text whatsoever, well-formed or not, that cannot be parsed is refused in one of five ways, whatever the data: as an invalid expression, with an empty stack, a class cast or a null pointer (this one only outside the grammar), or with a number format failure (this one only if the text contains a whole number beyond 64 bits). Nothing else, in particular no index out of bounds, and parsing always ends.", "quantifier": "all texts, default fields, data", "why_tests_cant": "Needs every malformed text.", "anchors": ["src/main/java/com/github/sidhant92/boolparser/parser/antlr/BoolParser.java:parseExpression", "src/main/java/com/github/sidhant92/boolparser/parser/antlr/BooleanFilterListener.java", "src/main/java/com/github/sidhant92/boolparser/util/ValueUtils.java"]}
{"id": "C77", "title": "The parser that is shipped parses the published grammar", "statement": "The automaton stored as a string in the generated parser is well formed and reads exactly the token sequences of the published grammar. The generated methods, choosing at every decision as this automaton predicts, build at most one tree for a text, build one exactly for the texts of the grammar, and it is the tree with the documented precedences that parsing hands on; together with the automaton of the generated lexer this covers the whole front end. The tokens at which error repair resynchronises are those the automaton allows next.", "quantifier": "all texts, all token sequences, all nestings of active rules", "why_tests_cant": "The grammar file and the compiled class can differ on any of infinitely many token sequences; the compiled form is a table of 147 states that no test enumerates.", "anchors": ["src/main/java/com/github/sidhant92/boolparser/parser/antlr/BooleanExpressionParser.java:_serializedATN", "src/main/java/com/github/sidhant92/boolparser/parser/antlr/BooleanExpressionParser.java:expression", "src/main/java/com/github/sidhant92/boolparser/parser/antlr/BooleanExpressionParser.java:wordlist", "src/main/java/com/github/sidhant92/boolparser/parser/antlr/BooleanExpressionParser.java:types", "src/main/java/com/github/sidhant92/boolparser/parser/antlr/BoolParser.java:parseExpression"]}
{"id": "C78", "title": "Slips of the pen are read over", "statement": "A text that differs from a text of the grammar by isolated slips is parsed and evaluated exactly like the text without them: TO missing from a range, IN missing from NOT IN, the opening parenthesis of a list missing, a word too many before TO, before the IN of NOT IN, before a list, or before a comma or closing parenthesis. No exception is thrown; the only trace is one error message per slip on the standard error stream. (The corrected text has signs only before literals.)", "quantifier": "all texts, all numbers and places of slips, all data, all default fields", "why_tests_cant": "Any number of slips at any places of any text.", "anchors": ["src/main/java/com/github/sidhant92/boolparser/parser/antlr/BooleanExpressionParser.java:expression", "src/main/java/com/github/sidhant92/boolparser/parser/antlr/BooleanExpressionParser.java:wordlist", "src/main/java/com/github/sidhant92/boolparser/parser/antlr/BoolParser.java:parseExpression"]}
{"id": "C79", "title": "Every failure has a cause in the text or the data", "statement": "When the evaluation of an accepted text fails, the exception tells what to look for. A null pointer means a null inside a list or collection of the data, a date in the text that is none, or an operand left out without a default field; an arithmetic exception means a division, a remainder or one of MIN, MAX, AVG, SUM, MEAN, MODE, MEDIAN; a number format exception a power; a class cast a minus with a Double or Float in the data, or CONTAINS with an array or a collection other than a list; no such element a comparison with a missing field; index out of bounds a name made of dots only; an unsupported token logic inside arithmetic, or in the arithmetic evaluator; heterogeneous array CONTAINS; invalid container type a function other than LEN; invalid function argument DAYS_ELAPSED; invalid expression a function and an empty list in the data; invalid unary operand NOT or a text that is one operand. An empty stack never depends on the data. So a text of comparisons, ranges and IN over complete, null-free data can only fail for a type.", "quantifier": "all texts of the grammar, all data, all default fields, both evaluators", "why_tests_cant": "The absence of an exception for all texts and all data is not testable; a test shows one failure, never that there is no other way to get it.", "anchors": ["src/main/java/com/github/sidhant92/boolparser/application/BooleanExpressionEvaluator.java", "src/main/java/com/github/sidhant92/boolparser/application/ArithmeticExpressionEvaluator.java", "src/main/java/com/github/sidhant92/boolparser/operator", "src/main/java/com/github/sidhant92/boolparser/function", "src/main/java/com/github/sidhant92/boolparser/util/ValueUtils.java"]}
{"id": "C80", "title": "Versions with a stage are ordered as released", "statement": "A version written as numbers, a stage and a build number (1.0-alpha, 2.1-RC3, 1.4b2, 1.0-SNAPSHOT) is compared by its numbers first (a missing number counts as 0), then by stage: alpha, beta, milestone, rc or cr, snapshot, the release itself (no stage, ga or final), sp, any other word alphabetically; then by build number. Capital and small letters, and a dash before the stage or the build number, make no difference; a, b, m directly before a number mean alpha, beta, milestone. Among such versions < is transitive; of any two versions exactly one of <, =, > holds. (With a word after a dot, as in 1.a, < is not transitive.)", "quantifier": "all texts of versions of this form with any numbers and words, all six comparison operators, all data", "why_tests_cant": "Infinitely many versions; transitivity and exclusiveness quantify over triples and pairs of texts.", "anchors": ["src/main/java/com/github/sidhant92/boolparser/datatype/VersionDataType.java", "src/main/java/com/github/sidhant92/boolparser/operator/comparison"]}
{"id": "C81", "title": "Texts equal objects by their printed form", "statement": "A text that is no date equals an object of any kind (a number, a truth value, a date, a date-time, a list, a collection, a map) exactly when it is the object's printed form: integers in plain digits, decimals with their scale or in exponent form, dates and date-times in ISO form (seconds left out when zero, fractions in 3, 6 or 9 digits), lists as [a, b], maps as {k=v, ...}. Every object has exactly one printed form; different integers, dates and date-times have different ones. CONTAINS_ALL and CONTAINS_ANY compare printed forms; + with a text joins printed forms, left first.", "quantifier": "all texts, all values incl. nested lists and maps with real dates, all data", "why_tests_cant": "Unbounded numbers, nested collections and all dates down to the nanosecond.", "anchors": ["src/main/java/com/github/sidhant92/boolparser/datatype/StringDataType.java", "src/main/java/com/github/sidhant92/boolparser/operator/comparison/EqualsOperator.java", "src/main/java/com/github/sidhant92/boolparser/operator/comparison/ContainsAllOperator.java", "src/main/java/com/github/sidhant92/boolparser/operator/arithmetic/AddOperator.java"]}
{"id": "C82", "title": "Malformed texts obey the same rules", "statement": "The library repairs every malformed text instead of refusing it. Whatever it makes of a text, the outcome depends only on the values of the names that occur in the text (and the default field); on today's date only if DAYS_ELAPSED occurs and on the platform's power function only if ^ occurs; an answer to a text without the word null is kept when fields are added to the data; and if the evaluation fails because data were not found, a name occurring in the text has no value (for arithmetic: a field named in the text). A text refused before the data are looked at is refused with all data.", "quantifier": "all texts whatsoever, all data, all default fields, all clocks", "why_tests_cant": "Error recovery has unboundedly many cases; independence of data and clock quantifies over pairs of executions.", "anchors": ["src/main/java/com/github/sidhant92/boolparser/parser/antlr/BoolParser.java", "src/main/java/com/github/sidhant92/boolparser/parser/antlr/BooleanFilterListener.java", "src/main/java/com/github/sidhant92/boolparser/application/BooleanExpressionEvaluator.java", "src/main/java/com/github/sidhant92/boolparser/application/ArithmeticExpressionEvaluator.java"]}
{"id": "C83", "title": "What a data type of the user touches", "statement": "The data types fall into four families: numbers, texts with dates, truth values, versions. If everything a condition or calculation compares and computes with (its literals, its operators and the data) belongs to some families, a data type the program registered for another family makes no difference. For single operations the rule is exact: with one type replaced that no operand has, comparing two numbers gives what it gave; an arithmetic operator or function on numbers fails with a ClassCastException if the replaced type is the one it calculates with ('/' and MEDIAN: decimal; '+', '*', '^', SUM, AVG: decimal or long even for integers; '-', '%', MIN, MAX: the widest type of the operands), and otherwise gives what it gave.", "quantifier": "All well-formed conditions and calculations, data, sets of families, programs that constructed an evaluator, registered types and objects of the user; all operators, functions with two or more arguments and numbers.", "why_tests_cant": "Which type objects an evaluation fetches depends on the shape of the text and the types of the values met on the way; a test replaces one type and runs a few texts.", "anchors": ["src/main/java/com/github/sidhant92/boolparser/datatype/DataTypeFactory.java", "src/main/java/com/github/sidhant92/boolparser/util/ValueUtils.java", "src/main/java/com/github/sidhant92/boolparser/operator/arithmetic/AddOperator.java", "src/main/java/com/github/sidhant92/boolparser/function/FunctionEvaluatorService.java"]}
{"id": "C84", "title": "Which texts are dates", "statement": "A text is read as a day iff it is a year, a month and a day joined by dashes: four digits of the year without a sign, or five to nineteen after a plus, the year 1 to 999999999, month 01 to 12, day 01 to 31; a day beyond the end of its month is read as the last day of the month. It is read as a moment iff it is such a day, a space and hh:mm:ss, where 24:00:00 is the midnight after. Every other text is ordinary; no text is read in two ways. Two days (texts or LocalDates) compare by the calendar, two moments likewise, a day and a moment fail with InvalidDataType, and an ordinary text compares with a text, day or moment by the printed forms. DAYS_ELAPSED of a text gives the days from the day written to today; it refuses a day beyond the end of its month or a year of more than ten digits as an invalid argument, and texts that are no days as an invalid type.", "quantifier": "all texts, all six comparison operators, all LocalDates and LocalDateTimes, all clocks", "why_tests_cant": "The set of texts is infinite and the boundary is where bugs live: leading zeros, signs, ends of months, 24 o'clock.", "anchors": ["src/main/java/com/github/sidhant92/boolparser/util/ValueUtils.java:getDataType", "src/main/java/com/github/sidhant92/boolparser/util/ValueUtils.java:parseDate", "src/main/java/com/github/sidhant92/boolparser/datatype/DateDataType.java", "src/main/java/com/github/sidhant92/boolparser/datatype/DateTimeDataType.java", "src/main/java/com/github/sidhant92/boolparser/function/arithmetic/DaysElapsedFunction.java"]}
{"id": "C85", "title": "Exactly which expressions the library understands", "statement": "A well-formed condition or calculation in which no name and no literal occurs twice is turned into the node its text means exactly if it meets a syntactic rule, and otherwise is refused or turned into a different node. The rule: arguments of calls and items of lists are fields, literals, one operator between two of these, or calls of such arguments; a minus stands before a field, a literal or an operator expression, never before a call; of two compound operands the right one has only fields and literals as arguments, and after an operator expression it may not be a minus; of two compound sides of a comparison both are calls; after an IN, range or CONTAINS test no comparison of two plain operands follows; right of AND and OR there is no list or call with compound items and no comparison of two calls. A single operand in parentheses comes out as itself exactly if it is a field or a text.", "quantifier": "All well-formed conditions and calculations without repeated names or literals, every spelling and spacing of their texts, every default field.", "why_tests_cant": "The listener keeps operands on one stack, so whether an expression survives depends on everything to its left; the boundary between understood and garbled runs through infinitely many shapes at every depth.", "anchors": ["src/main/java/com/github/sidhant92/boolparser/parser/antlr/BooleanFilterListener.java", "src/main/java/com/github/sidhant92/boolparser/parser/antlr/BoolParser.java", "src/main/java/resources/BooleanExpression.g4"]}
{"id": "C86", "title": "As what Java type a result comes", "statement": "The class of a result follows from the operation and the classes of its operands. '+' and '*': BigDecimal if an operand is a BigDecimal, Double or Float, otherwise an Integer, or a Long too large for one; '+' with a text, version or truth value: String. '-': BigDecimal, Long or Integer, the widest of the operands; '%': Long if an operand is one, otherwise Integer. '/': an Integer, or a BigDecimal that is not whole. '^': an Integer, or a BigDecimal whose number no Integer has. Minus keeps the class. MIN, MAX, SUM, AVG, MEAN, MEDIAN: an Integer, or a BigDecimal whose number no Integer has (never a Long). INT and LEN: Integer. DAYS_ELAPSED: Long. MODE: an Integer, a Long too large for one, a BigDecimal that is not whole, or the Double or Float item itself. Whatever the text, a result is of one of the classes Integer, Long, BigDecimal, unless it is the value of a field or literal, a String from '+', or a Double or Float from MODE.", "quantifier": "All operators, functions, operands of any class, data; for the last sentence all texts, well-formed or not.", "why_tests_cant": "Callers cast the result object. Which class arrives depends on the values, not only on the expression, and changes at the boundary of 32 bits and at whole quotients.", "anchors": ["src/main/java/com/github/sidhant92/boolparser/util/ValueUtils.java:castDecimal", "src/main/java/com/github/sidhant92/boolparser/util/ValueUtils.java:castLong", "src/main/java/com/github/sidhant92/boolparser/operator/arithmetic/", "src/main/java/com/github/sidhant92/boolparser/function/arithmetic/"]}
{"id": "C87", "title": "The default locale of the virtual machine", "statement": "Under every default locale other than Turkish and Azeri the library gives the same results. Under a Turkish or Azeri one (where the capital of i is İ) a text without the words min, int, median, contains_all and contains_any in lower case gives the same outcome too; a text with min, int or median in lower case fails whatever the data; a test with contains_all or contains_any in lower case that has a result elsewhere fails with InvalidContainerTypeException. No default locale changes a result: an evaluation that succeeds gives the result it gives elsewhere. In a text that is not of the grammar those words may stand in a part that is skipped; otherwise all this holds of such texts too. Under a Turkish or Azeri one the message about a text that is one call of min, int or median in lower case, its arguments being fields and literals, is 'Error parsing expression for the string' with the tokens of the call; of any text under any default locale the message of an InvalidExpressionException of the parser quotes a piece of the text. Comparison and calculation symbols and the words for truth values are recognised under every locale.", "quantifier": "All texts, data, default fields and default locales; that min, int, median, contains_all and contains_any fail under a Turkish or Azeri locale: all texts of the grammar.", "why_tests_cant": "Tests run under one default locale, usually English; names are converted with the locale of the machine.", "anchors": ["src/main/java/com/github/sidhant92/boolparser/constant/FunctionType.java:getArrayFunctionFromSymbol", "src/main/java/com/github/sidhant92/boolparser/constant/Operator.java:getOperatorFromSymbol", "src/main/java/com/github/sidhant92/boolparser/parser/antlr/BooleanFilterListener.java:exitArrayExpression", "src/main/java/com/github/sidhant92/boolparser/datatype/BooleanDataType.java"]}
{"id": "C88", "title": "An evaluation changes nothing the caller can see", "statement": "Evaluating a condition or calculation leaves every object that existed before as it was: the data map, its lists, arrays and nested maps, and the node, however they share or contain each other, and also if the evaluation fails. The result depends only on the contents of data and node, not on which objects hold them; evaluations done before, of whatever expressions over whatever data, make no difference. A calculation that returns an object returns one the caller had before; for a field it is the very object in the data, not a copy.", "quantifier": "All object graphs (shared, cyclic, malformed), all nodes and data in them, all outcomes.", "why_tests_cant": "A test compares a few data maps before and after; the functions sort, count and flatten lists, and nothing in their types says that the lists are copies.", "anchors": ["src/main/java/com/github/sidhant92/boolparser/application/BooleanExpressionEvaluator.java", "src/main/java/com/github/sidhant92/boolparser/application/ArithmeticExpressionEvaluator.java", "src/main/java/com/github/sidhant92/boolparser/util/ValueUtils.java", "src/main/java/com/github/sidhant92/boolparser/function/FunctionEvaluatorService.java", "src/main/java/com/github/sidhant92/boolparser/function/arithmetic/"]}
{"id": "C89", "title": "Who may change a node", "statement": "The plain parser returns a tree of new objects, so an evaluation with it gives what text and data say whatever a program did before to nodes it received. The caching parser returns the object it keeps. With it the same holds as long as no object of a tree still in the cache is changed and no other request had the same key; after such a change (setOperator, setLeft, an item list) every evaluation of the text, by whatever user of the parser, follows the changed tree.", "quantifier": "All programs that parse, evaluate, create and change objects in any order, all evictions, texts, default fields and data.", "why_tests_cant": "Whether a node is shared shows only in programs that change it, and the effect appears in other callers, later.", "anchors": ["src/main/java/com/github/sidhant92/boolparser/parser/antlr/CachedBoolParser.java", "src/main/java/com/github/sidhant92/boolparser/parser/antlr/BoolParser.java", "src/main/java/com/github/sidhant92/boolparser/domain/BooleanNode.java", "src/main/java/com/github/sidhant92/boolparser/parser/antlr/BooleanFilterListener.java"]}
{"id": "C90", "title": "Threads may share parsers, cached nodes and data", "statement": "Any number of threads may call parsers and evaluators at the same time, with the same caching parser, the same nodes and the same data. Whatever the order in which they proceed, and whatever entries the cache loses meanwhile, a call that ends gives what its text and the data at the time of the call say (or throws what it throws alone), provided that nobody changes an object a running call works with or a tree in the cache, and that for the caching parser no other request has the same key. No call waits for another for ever: a thread that keeps getting turns ends its call. If the data are changed while a call runs, the call may return an answer that is right at no time.", "quantifier": "All numbers of threads, all schedules, all texts, data, evictions, and all changes by other code that keep the rules.", "why_tests_cant": "A test runs a few of the possible schedules, and an error shows only in a rare one.", "anchors": ["src/main/java/com/github/sidhant92/boolparser/parser/antlr/CachedBoolParser.java:getNode", "src/main/java/com/github/sidhant92/boolparser/parser/antlr/BoolParser.java", "src/main/java/com/github/sidhant92/boolparser/application/BooleanExpressionEvaluator.java", "src/main/java/com/github/sidhant92/boolparser/application/ArithmeticExpressionEvaluator.java"]}
{"id": "C91", "title": "Null for the text or the data", "statement": "A null text makes every plain parser and evaluator fail with a NullPointerException (wrapped in the Try, never thrown at the caller), whatever the data. On null data a text either fails with a NullPointerException or ends exactly as it does on all data, so an answer obtained without data depends on no data; and what fails for a missing field on some data fails with a NullPointerException on null data, never as missing data. The caching parser keeps nothing for a null text; it also fails, unless it keeps the node of a text whose cache key reads the same (such as the text `null`), which it then returns although the plain parser refuses.", "quantifier": "All texts, well-formed or not, all data, default fields and histories of the caching parser.", "why_tests_cant": "The claim is about every text on null data and about every history of a cache.", "anchors": ["src/main/java/com/github/sidhant92/boolparser/parser/antlr/BoolParser.java", "src/main/java/com/github/sidhant92/boolparser/parser/antlr/CachedBoolParser.java", "src/main/java/com/github/sidhant92/boolparser/util/ValueUtils.java:getValueFromMap", "src/main/java/com/github/sidhant92/boolparser/application/BooleanExpressionEvaluator.java", "src/main/java/com/github/sidhant92/boolparser/application/ArithmeticExpressionEvaluator.java"]}
{"id": "C92", "title": "Which texts count as numbers", "statement": "Ordering a text against a number (<, <=, >, >=, on either side) and testing whether a text lies in a numeric range give a truth value exactly if the text stands for a number that the type of the other number can hold, and then the truth value for that number; every other text makes the evaluation fail with InvalidDataType. A text stands for a number if it is an optional sign, digits with or without a point (`.5` and `5.` included, a lone point not), and optionally e or E with a whole exponent of 32 bits; no spaces. The digits may be of any script, and writing them in another script changes nothing. Equality compares texts instead: 12 in Devanagari digits is neither less than, nor greater than, nor equal to 12.", "quantifier": "All texts, all numbers of all number types, all order comparisons and ranges, all expressions giving the operands.", "why_tests_cant": "The claim settles every text, numeric or not, against every number.", "anchors": ["src/main/java/com/github/sidhant92/boolparser/datatype/IntegerDataType.java:isValid,getValue", "src/main/java/com/github/sidhant92/boolparser/datatype/LongDataType.java:isValid,getValue", "src/main/java/com/github/sidhant92/boolparser/datatype/DecimalDataType.java:isValid,getValue", "src/main/java/com/github/sidhant92/boolparser/operator/comparison/NumericOperator.java", "src/main/java/com/github/sidhant92/boolparser/service/OperatorService.java"]}
{"id": "C93", "title": "Every failure of any text has a cause", "statement": "When the evaluation of any text, well-formed or not, fails, and not because the text is refused whatever the data, the exception tells what to look for: one of the causes it has in well-formed texts (C79), or one of a few slips that occur only in malformed ones. An arithmetic exception, a number format, a class cast, a heterogeneous array, an invalid container type, an invalid function argument and an invalid expression have the same causes as in well-formed texts; an empty stack never depends on the data. A wrong type can also come from a name followed by two numbers (read as a range without its TO) or by NOT ( (read as NOT IN without its IN); a null pointer also from a date after TO, or, without default field, from an operand missing where a malformed text can lack one; no such element and index out of bounds also from a default field standing for such an operand; an invalid unary operand also from a text that begins with one operand and does not go on with an operator; an unsupported token also from a range without its TO inside arithmetic. The range without TO, NOT IN without IN and a date after TO occur in no text of the grammar.", "quantifier": "all texts whatsoever, all data, all default fields, both evaluators", "why_tests_cant": "The claim excludes causes for all texts the library repairs, of which there are infinitely many of any shape.", "anchors": ["src/main/java/com/github/sidhant92/boolparser/parser/antlr/BoolParser.java:parseExpression", "src/main/java/com/github/sidhant92/boolparser/parser/antlr/BooleanFilterListener.java", "src/main/java/com/github/sidhant92/boolparser/application/BooleanExpressionEvaluator.java", "src/main/java/com/github/sidhant92/boolparser/application/ArithmeticExpressionEvaluator.java"]}
{"id": "C94", "title": "Renaming and spelling in texts outside the grammar", "statement": "What holds of well-formed texts when fields are renamed (C62) and keywords spelled differently (C41) holds of every text, well-formed or not. Two texts whose lexemes correspond, where corresponding field names find the same value in their data, have the same outcome with both evaluators, whatever repairs the parser makes; so have two texts that differ in the spelling of keywords and operators (AND, and, &&), if no field is named like a keyword; with the arithmetic evaluator, which returns the text of a lone lexeme, this holds for NOT and function names. How many syntax errors are printed depends only on the kinds of the lexemes. The texts must agree in what stands after TO unless it is a number: there the parser takes any word as a bound, so renaming `1e3` in `a 0 TO 1e3` changes the outcome.", "quantifier": "all pairs of texts whatsoever with corresponding lexemes, all data, all default fields, both evaluators", "why_tests_cant": "It compares the repairs of infinitely many pairs of malformed texts.", "anchors": ["src/main/java/com/github/sidhant92/boolparser/parser/antlr/BoolParser.java:parseExpression", "src/main/java/com/github/sidhant92/boolparser/parser/antlr/BooleanFilterListener.java", "src/main/java/com/github/sidhant92/boolparser/application/BooleanExpressionEvaluator.java", "src/main/java/com/github/sidhant92/boolparser/application/ArithmeticExpressionEvaluator.java", "src/main/java/resources/BooleanExpression.g4"]}
{"id": "C95", "title": "How large the node of a text can be", "statement": "The node a parse returns is bounded by the text. For a condition or calculation that the parser reads as written (C85) it has at most as many parts as the text has lexemes (plus one for each operand left to the default field). For any text whatsoever with n lexemes it has at most (2n+1)(n+1) parts, and so at most that depth, whatever repairs the parser makes. The square is needed: in k nested functions around `1 * 2 + 3` the operands are built again at every level, so that 3k+5 lexemes give a node whose depth grows with k squared, and no linear bound holds of all texts.", "quantifier": "all texts with any number of lexemes, all default fields; all nesting depths k", "why_tests_cant": "It bounds the result of infinitely many texts, malformed ones included.", "anchors": ["src/main/java/com/github/sidhant92/boolparser/parser/antlr/BoolParser.java:parseExpression", "src/main/java/com/github/sidhant92/boolparser/parser/antlr/BooleanFilterListener.java", "src/main/java/resources/BooleanExpression.g4"]}
{"id": "C96", "title": "What a data map is asked for", "statement": "The data argument may be any implementation of Map, one that computes values when asked, changes its answers or throws. Evaluating a condition that the parser reads as written (C85) asks it at most once for every written mention of a field, in reading order, and for nothing that is not written (an omitted operand asks for the default field, a null check does not ask for null). A test without AND and OR, and a calculation, asks from the left and has asked for every mention when it has a result. `x AND y` asks what x asks, and what y asks only if x is true; OR likewise if x is false. For any text whatsoever: an exception of the map ends the evaluation at once and is its outcome; two maps that answer the questions asked alike give the same outcome, so a map that computes its values can be replaced by the values it gave; and the number of questions is at most (2n+1)(n+1) for n lexemes. In other texts, such as MIN(a * b + c), a mention may be asked for again.", "quantifier": "all maps, also stateful and throwing ones, all conditions and calculations that the parser reads as written, for the general part all texts, all default fields", "why_tests_cant": "It quantifies over every behaviour of a user's map and over all texts; a test sees one map and one text.", "anchors": ["src/main/java/com/github/sidhant92/boolparser/application/BooleanExpressionEvaluator.java", "src/main/java/com/github/sidhant92/boolparser/application/ArithmeticExpressionEvaluator.java", "src/main/java/com/github/sidhant92/boolparser/util/ValueUtils.java"]}
{"id": "C97", "title": "Which field a missing-data failure names", "statement": "When an evaluation of any text fails with DataNotFoundException, the message is `Data not found for the key k` where k is a name the text mentions (or the default field), the data have no value for k, and k is the name looked up last. In a calculation, and in a condition without AND and OR that is no null check, k is the first field in reading order without a value; in every condition that the parser reads as written it is one of the written fields. So a user who supplies the named field and tries again is told at most as often as the condition has different fields. A missing right operand of a comparison is not named: it fails with NoSuchElementException.", "quantifier": "all texts, all data maps, all default fields; for reading order all conditions and calculations that the parser reads as written", "why_tests_cant": "The name depends on the order of lookups in arbitrarily nested expressions and on which fields are missing; a test sees one of each.", "anchors": ["src/main/java/com/github/sidhant92/boolparser/exception/DataNotFoundException.java", "src/main/java/com/github/sidhant92/boolparser/application/BooleanExpressionEvaluator.java", "src/main/java/com/github/sidhant92/boolparser/application/ArithmeticExpressionEvaluator.java", "src/main/java/com/github/sidhant92/boolparser/util/ValueUtils.java"]}
{"id": "C98", "title": "Dotted names through maps the user implements", "statement": "The data argument and every map reachable from it may be an implementation of the user that computes, changes its answers or throws. A field a.b.c has the value v exactly if get(\"a\") of the data argument returns a map whose get(\"b\") returns a map whose get(\"c\") returns v, and exactly those calls are made. During any evaluation every call goes to the data argument or to the map returned by the call just before; for a condition that the parser reads as written (C85) the keys are parts of the written names and there are at most as many calls as keys in all mentions. Maps that answer the calls made alike give the same outcome. An exception of a map ends the evaluation at once and is its outcome, except that a ClassCastException of an inner map (a TreeMap with numbers as keys) counts as a missing value; of the data argument itself it does not.", "quantifier": "all maps, nested to any depth, also stateful and throwing ones, all texts (keys and counts: all conditions and calculations that the parser reads as written), all default fields", "why_tests_cant": "It quantifies over every behaviour of a user's maps, any depth of nesting and all texts.", "anchors": ["src/main/java/com/github/sidhant92/boolparser/util/ValueUtils.java:getValueFromMap", "src/main/java/com/github/sidhant92/boolparser/application/BooleanExpressionEvaluator.java", "src/main/java/com/github/sidhant92/boolparser/application/ArithmeticExpressionEvaluator.java"]}
{"id": "C99", "title": "A parser of the user, and nodes made by hand", "statement": "Both evaluators accept any implementation of BoolExpressionParser. Each evaluation calls it exactly once, with the text and the default field (null for the calls without one). An exception leaves the evaluation only if the parser threw it, or as a NullPointerException if the parser returned null; a Failure of the parser is returned as it is, whatever the data; otherwise the outcome depends on the returned node and the data alone. A node made with the public constructors that has its operands, lists, names and data types and operators of the right kind is evaluated as the same node from a text. A null anywhere in a node matters only when the evaluation comes to it, and then the failure is a NullPointerException; the exceptions are a null operator of, or null right operand in, what would be a test for null, and a null data type of a bound of a range, with which the test fails with InvalidDataType. The data type of a comparison and the right child of NOT and of a negation are never looked at. A comparison with the operator IN is an equality; any other operator of a wrong kind, or a null one, never gives a result: once the operands have values, CONTAINS in a comparison, and IN or a comparison operator in a CONTAINS test, fail with InvalidContainerType, the others with a NullPointerException. A node of a class of the user is never a value of a calculation: the failure is a ClassCastException if it says that it is a field, literal, calculation or function, an UnsupportedToken otherwise. As a condition it is false if it says that it is a field, a calculation or a function, and a ClassCastException otherwise; a NullPointerException in both cases if it has no type.", "quantifier": "all parsers, stateful and throwing ones included, all nodes that can be built from the library's public constructors and from classes that extend Node or ArithmeticBaseNode directly, of any size, all data", "why_tests_cant": "It quantifies over every implementation of an interface, every node that can be constructed and every way of filling its nulls.", "anchors": ["src/main/java/com/github/sidhant92/boolparser/parser/BoolExpressionParser.java", "src/main/java/com/github/sidhant92/boolparser/application/BooleanExpressionEvaluator.java", "src/main/java/com/github/sidhant92/boolparser/application/ArithmeticExpressionEvaluator.java", "src/main/java/com/github/sidhant92/boolparser/operator/OperatorFactory.java", "src/main/java/com/github/sidhant92/boolparser/domain/logical/ComparisonNode.java"]}
{"id": "C100", "title": "EvaluatedNode objects in the data", "statement": "The data may hold objects of the library's public class EvaluatedNode, a value with a data type. As an operand of an arithmetic operator such an object is the value it holds with the data type it claims: a calculation without functions gives what it gives over data holding the values themselves, also inside conditions. A field compared as it is, in a range or tested for null is not looked into: the object counts by its text. A function, IN and CONTAINS get such an object twice, as the value it holds and as an object: LEN counts both, every other function fails whatever the other arguments, and `a IN (f)` holds if a equals the value or the object's text. Data without such objects is evaluated as the other properties say.", "quantifier": "all data, all such objects, all calculations and conditions without functions and lists, all calls and lists of fields", "why_tests_cant": "All mixtures of plain and wrapped values in all expressions.", "anchors": ["src/main/java/com/github/sidhant92/boolparser/application/ArithmeticExpressionEvaluator.java", "src/main/java/com/github/sidhant92/boolparser/util/ValueUtils.java:mapToEvaluatedNodes", "src/main/java/com/github/sidhant92/boolparser/domain/EvaluatedNode.java", "src/main/java/com/github/sidhant92/boolparser/application/BooleanExpressionEvaluator.java:resolveArrayElements"]}
{"id": "C101", "title": "What a failure says", "statement": "The message of an exception of the library tells which part of the expression is at fault. For a calculation or condition that the parser reads as written (C85) the message is determined: operands are looked at from left to right, the first one that has no value supplies the message, and a missing field is named. If the operands have values, the message names the operator and the type of the first operand that the operator does not take, or the operand that is a Double or Float without a number; a comparison names the two types that do not go together or the value that is not of the type the two are compared as; a function names itself and the first item without a number, or says that it does not take that many items or an item of that type; IN, CONTAINS and NOT likewise. There are two slips: a right operand of a calculation that is refused is called the left one, and for a right operand without a number its data type is printed instead of its value. For any text whatever, well formed or not, a failure has a message of the library if and only if its exception class is one of the library's; a missing right operand of a comparison is a NoSuchElementException and names no field. The arithmetic evaluator given a condition names the kind of test it does not support.", "quantifier": "all expressions that the parser reads as written, all data, all default fields other than the word null; that a failure has a message if and only if its exception is the library's: all texts", "why_tests_cant": "Which of several faults is reported, and with which operand, type and value, depends on the whole expression and the data.", "anchors": ["src/main/java/com/github/sidhant92/boolparser/operator/OperatorService.java", "src/main/java/com/github/sidhant92/boolparser/operator/comparison/NumericOperator.java", "src/main/java/com/github/sidhant92/boolparser/constant/ContainerDataType.java", "src/main/java/com/github/sidhant92/boolparser/function/FunctionEvaluatorService.java", "src/main/java/com/github/sidhant92/boolparser/application/BooleanExpressionEvaluator.java", "src/main/java/com/github/sidhant92/boolparser/application/ArithmeticExpressionEvaluator.java"]}
{"id": "C102", "title": "What a refusal says", "statement": "If a text of the grammar is refused with an InvalidExpressionException, the message quotes, without white space, a piece of the text that is an expression of the grammar itself: an item of a list or of arguments, or a side of a comparison, that has parentheses, minus or NOT in front, is joined by AND or OR or is a CONTAINS test; a calculation neither operand of which is a name or literal; or an AND or OR with its two parts. Neither the whole text with <EOF> behind it, nor a NOT, nor a missing field is ever reported for such a text. Both evaluators pass the exception on, whatever the data. In a list or call of fields and literals, some of them after a minus or in parentheses, the first such one is quoted. Two operands in parentheses with an arithmetic operator between them are quoted together; compared, only the right one is quoted, as an expression that an array does not support although there is no array. An AND or OR of two names or literals is quoted as it stands. For a text that is not of the grammar the message still quotes a piece of it, token by token, with nothing added except <missing '('>, <missing ')'>, <missing IN> or <missing TO> where the parser supplied what was missing, and <EOF> for the end of the text.", "quantifier": "all texts of the grammar, all default fields, all data; the last sentence: all texts", "why_tests_cant": "Which piece is quoted depends on the whole text and on what the parser has kept from the parts before it.", "anchors": ["src/main/java/com/github/sidhant92/boolparser/parser/antlr/BooleanFilterListener.java", "src/main/java/com/github/sidhant92/boolparser/parser/antlr/BoolParser.java"]}
