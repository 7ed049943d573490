import Verif.Model.Api
import Verif.Util.KRfl
/-!
# The repository's own evaluator tests, run on the model

Generated by /verif/tools/gen_repo_tests.py from
`src/test/java/com/github/sidhant92/boolparser/application/*Test.java`. These are tests of the model
against the behaviour the maintainers recorded, not theorems of the property list.
-/

namespace BoolParser.RepoTests

/-- A fixed world: some day as today, exact powers. -/
def env0 : Env := ⟨⟨2024, 1, 1⟩, fun a b => .fin (a ^ b.toNat) 0, fun a b => .fin (a.trunc ^ b.trunc.toNat) 0⟩

/-- `assertTrue(result.isFailure())`. -/
def isFailure {α : Type} : Outcome α → Bool
  | .failure _ => true
  | _ => false

/-- `assertTrue(((BigDecimal) result.get()).compareTo(new BigDecimal(text)) == 0)`. -/
def decEquals (o : Outcome Value) (text : JStr) : Bool :=
  match o, Dec.parse text with
  | .success (.dec d), some e => d.cmp e == .eq
  | _, _ => false

/-- `testUnaryExpressionWithField` (BooleanExpressionEvaluatorTest) -/
example : evaluate env0 j!"not is_allowed" [(j!"is_allowed", .bool true)] none = .success false := by krfl

/-- `testUnaryExpressionWithBoolean` (BooleanExpressionEvaluatorTest) -/
example : evaluate env0 j!"not false" [(j!"is_allowed", .bool true)] none = .success true := by krfl

/-- `testInvalidUnaryOperation` (BooleanExpressionEvaluatorTest) -/
example : isFailure (evaluate env0 j!"not is_allowed" [(j!"is_allowed", .int (123))] none) = true := by krfl

/-- `testInvalidUnaryOperation` (BooleanExpressionEvaluatorTest) -/
example : evaluate env0 j!"not is_allowed" [(j!"is_allowed", .int (123))] none = .failure .invalidUnaryOperand := by krfl

/-- `testSimpleTrueCorrectExpression` (BooleanExpressionEvaluatorTest) -/
example : evaluate env0 j!"name = 'abc'" [(j!"name", .str j!"abc")] none = .success true := by krfl

/-- `testSimpleTrueCorrectExpressions` (BooleanExpressionEvaluatorTest) -/
example : evaluate env0 j!"name = 'abc-'" [(j!"name", .str j!"abc-")] none = .success true := by krfl

/-- `testInvalidDataType` (BooleanExpressionEvaluatorTest) -/
example : isFailure (evaluate env0 j!"name > 123" [(j!"name", .str j!"abc-")] none) = true := by krfl

/-- `testInvalidDataType` (BooleanExpressionEvaluatorTest) -/
example : evaluate env0 j!"name > 123" [(j!"name", .str j!"abc-")] none = .failure .invalidDataType := by krfl

/-- `testSimpleFalseIncorrectExpression` (BooleanExpressionEvaluatorTest) -/
example : evaluate env0 j!"name = 'abc'" [(j!"name", .str j!"def")] none = .success false := by krfl

/-- `testNumericEqualCorrectExpression` (BooleanExpressionEvaluatorTest) -/
example : evaluate env0 j!"age = 24" [(j!"age", .int (24))] none = .success true := by krfl

/-- `testNumericEqualIncorrectExpression` (BooleanExpressionEvaluatorTest) -/
example : evaluate env0 j!"age = 24" [(j!"age", .int (26))] none = .success false := by krfl

/-- `testNumericGreaterThanCorrectExpression` (BooleanExpressionEvaluatorTest) -/
example : evaluate env0 j!"age > 20" [(j!"age", .int (24))] none = .success true := by krfl

/-- `testNumericGreaterThanCorrectExpressionInverted` (BooleanExpressionEvaluatorTest) -/
example : evaluate env0 j!"20 < age" [(j!"age", .int (24))] none = .success true := by krfl

/-- `testNumericGreaterThanCorrectExpressionWithField` (BooleanExpressionEvaluatorTest) -/
example : evaluate env0 j!"age > b" [(j!"age", .int (24)), (j!"b", .int (20))] none = .success true := by krfl

/-- `testNestedField` (BooleanExpressionEvaluatorTest) -/
example : evaluate env0 j!"person.age > 20" [(j!"person", .map [(j!"age", .int (24))])] none = .success true := by krfl

/-- `testTwoNestedField` (BooleanExpressionEvaluatorTest) -/
example : evaluate env0 j!"person.details.age > 20" [(j!"person", .map [(j!"details", .map [(j!"age", .int (24))])])] none = .success true := by krfl

/-- `testMissingNestedField` (BooleanExpressionEvaluatorTest) -/
example : isFailure (evaluate env0 j!"person.agee > 20" [(j!"person", .map [(j!"age", .int (24))])] none) = true := by krfl

/-- `testMissingNestedField` (BooleanExpressionEvaluatorTest) -/
example : evaluate env0 j!"person.agee > 20" [(j!"person", .map [(j!"age", .int (24))])] none = .failure .dataNotFound := by krfl

/-- `testNumericGreaterThanIncorrectExpression` (BooleanExpressionEvaluatorTest) -/
example : evaluate env0 j!"age > 27" [(j!"age", .int (26))] none = .success false := by krfl

/-- `testDifferentDataTypesComparison` (BooleanExpressionEvaluatorTest) -/
example : evaluate env0 j!"age > 20" [(j!"age", .dbl j!"26.6")] none = .success true := by krfl

/-- `testNumericGreaterThanEqualCorrectExpression` (BooleanExpressionEvaluatorTest) -/
example : evaluate env0 j!"age >= 20" [(j!"age", .int (24))] none = .success true := by krfl

/-- `testNumericGreaterThanEqualIncorrectExpression` (BooleanExpressionEvaluatorTest) -/
example : evaluate env0 j!"age >= 27" [(j!"age", .int (26))] none = .success false := by krfl

/-- `testNumericLessThanEqualCorrectExpression` (BooleanExpressionEvaluatorTest) -/
example : evaluate env0 j!"age < 30" [(j!"age", .int (24))] none = .success true := by krfl

/-- `testNumericLessThanEqualIncorrectExpression` (BooleanExpressionEvaluatorTest) -/
example : evaluate env0 j!"age <= 20" [(j!"age", .int (26))] none = .success false := by krfl

/-- `testNumericNotEqualCorrectExpression` (BooleanExpressionEvaluatorTest) -/
example : evaluate env0 j!"age != 30" [(j!"age", .int (24))] none = .success true := by krfl

/-- `testNumericNotEqualIncorrectExpression` (BooleanExpressionEvaluatorTest) -/
example : evaluate env0 j!"age != 26" [(j!"age", .int (26))] none = .success false := by krfl

/-- `testSimpleNotStringExpression` (BooleanExpressionEvaluatorTest) -/
example : evaluate env0 j!"NOT (name = 'abc')" [(j!"name", .str j!"abc")] none = .success false := by krfl

/-- `testSimpleNotNumericExpression` (BooleanExpressionEvaluatorTest) -/
example : evaluate env0 j!"NOT (age = 24)" [(j!"age", .int (24))] none = .success false := by krfl

/-- `testComplexAndCorrectExpression` (BooleanExpressionEvaluatorTest) -/
example : evaluate env0 j!"name = 'sid' AND age = 25" [(j!"age", .int (25)), (j!"name", .str j!"sid")] none = .success true := by krfl

/-- `testComplexAndIncorrectExpression` (BooleanExpressionEvaluatorTest) -/
example : evaluate env0 j!"name = 'sid' AND age = 23" [(j!"age", .int (25)), (j!"name", .str j!"sid")] none = .success false := by krfl

/-- `testComplexORCorrectExpression` (BooleanExpressionEvaluatorTest) -/
example : evaluate env0 j!"name = 'sid' OR age = 23" [(j!"age", .int (25)), (j!"name", .str j!"sid")] none = .success true := by krfl

/-- `testComplexORIncorrectExpression` (BooleanExpressionEvaluatorTest) -/
example : evaluate env0 j!"name = 'sid' OR age = 23" [(j!"age", .int (25)), (j!"name", .str j!"sidh")] none = .success false := by krfl

/-- `testCorrectComplexExpressionWithParenthesis` (BooleanExpressionEvaluatorTest) -/
example : evaluate env0 j!"name = 'sid' AND (age = 25 OR num = 44)" [(j!"age", .int (25)), (j!"name", .str j!"sid"), (j!"num", .int (45))] none = .success true := by krfl

/-- `testNegativeInClauseForIntegers` (BooleanExpressionEvaluatorTest) -/
example : evaluate env0 j!"age in (26,56,34)" [(j!"age", .int (25))] none = .success false := by krfl

/-- `testNegativeInClauseForIntegersWithField` (BooleanExpressionEvaluatorTest) -/
example : evaluate env0 j!"age in (26,56,34,a)" [(j!"age", .int (25)), (j!"a", .int (25))] none = .success true := by krfl

/-- `testNotInClauseForIntegers` (BooleanExpressionEvaluatorTest) -/
example : evaluate env0 j!"age not in (26,56,34)" [(j!"age", .int (30))] none = .success true := by krfl

/-- `testPositiveInClauseForIntegers` (BooleanExpressionEvaluatorTest) -/
example : evaluate env0 j!"age in (26,25,34)" [(j!"age", .int (25))] none = .success true := by krfl

/-- `testPositiveInClauseForDecimals` (BooleanExpressionEvaluatorTest) -/
example : evaluate env0 j!"num in (26,25,34, 25.3)" [(j!"num", .dbl j!"25.3")] none = .success true := by krfl

/-- `testNegativeInClauseForStrings` (BooleanExpressionEvaluatorTest) -/
example : evaluate env0 j!"name in ('tes', 'abc')" [(j!"name", .str j!"test")] none = .success false := by krfl

/-- `testPositiveInClauseForStrings` (BooleanExpressionEvaluatorTest) -/
example : evaluate env0 j!"name in ('abc', 'test')" [(j!"name", .str j!"test")] none = .success true := by krfl

/-- `testCorrectComplexExpressionWithParenthesis1` (BooleanExpressionEvaluatorTest) -/
example : evaluate env0 j!"name = 'sidh' OR (age = 25 AND num = 45)" [(j!"age", .int (25)), (j!"name", .str j!"sid"), (j!"num", .int (45))] none = .success true := by krfl

/-- `testIncorrectComplexExpressionWithParenthesis` (BooleanExpressionEvaluatorTest) -/
example : evaluate env0 j!"name = 'sid' AND (age = 23 OR num = 44)" [(j!"age", .int (25)), (j!"name", .str j!"sid"), (j!"num", .int (45))] none = .success false := by krfl

/-- `testWrongDataType` (BooleanExpressionEvaluatorTest) -/
example : evaluate env0 j!"age = 'dsf'" [(j!"age", .int (24))] none = .success false := by krfl

/-- `testWrongDataType1` (BooleanExpressionEvaluatorTest) -/
example : evaluate env0 j!"age = 24" [(j!"age", .str j!"sf")] none = .success false := by krfl

/-- `testKeyMissing` (BooleanExpressionEvaluatorTest) -/
example : isFailure (evaluate env0 j!"age = 24" [(j!"agee", .int (34))] none) = true := by krfl

/-- `testKeyMissing` (BooleanExpressionEvaluatorTest) -/
example : evaluate env0 j!"age = 24" [(j!"agee", .int (34))] none = .failure .dataNotFound := by krfl

/-- `testAppVersionGraterThan` (BooleanExpressionEvaluatorTest) -/
example : evaluate env0 j!"app_version > 1.0.5" [(j!"app_version", .str j!"1.0.6")] none = .success true := by krfl

/-- `testAppVersionGraterThan1` (BooleanExpressionEvaluatorTest) -/
example : evaluate env0 j!"app_version > 1.0.6.14" [(j!"app_version", .str j!"1.0.6.15")] none = .success true := by krfl

/-- `testAppVersionGraterThan2` (BooleanExpressionEvaluatorTest) -/
example : evaluate env0 j!"app_version > 1.53" [(j!"app_version", .str j!"1.54")] none = .success true := by krfl

/-- `testAppVersionGraterThanEqualTo` (BooleanExpressionEvaluatorTest) -/
example : evaluate env0 j!"app_version >= 1.0.6" [(j!"app_version", .str j!"1.0.6")] none = .success true := by krfl

/-- `testAppVersionLessThan` (BooleanExpressionEvaluatorTest) -/
example : evaluate env0 j!"app_version < 1.5.10" [(j!"app_version", .str j!"1.5.9")] none = .success true := by krfl

/-- `testAppVersionLessThanEqualTo` (BooleanExpressionEvaluatorTest) -/
example : evaluate env0 j!"app_version <= 1.5.9" [(j!"app_version", .str j!"1.5.9")] none = .success true := by krfl

/-- `testStringEqualityWithQuotes` (BooleanExpressionEvaluatorTest) -/
example : evaluate env0 j!"name = 'sidhant aggarwal'" [(j!"name", .str j!"sidhant aggarwal")] none = .success true := by krfl

/-- `testDefaultFieldTrue` (BooleanExpressionEvaluatorTest) -/
example : evaluate env0 j!">= 18 AND < 20" [(j!"age", .int (19))] (some j!"age") = .success true := by krfl

/-- `testDefaultFieldFalse` (BooleanExpressionEvaluatorTest) -/
example : evaluate env0 j!">= 18 AND < 20" [(j!"age", .int (17))] (some j!"age") = .success false := by krfl

/-- `testContainsAnyTrueCondition` (BooleanExpressionEvaluatorTest) -/
example : evaluate env0 j!"age contains_any (2)" [(j!"age", .list [.int (1), .int (2), .int (3)])] none = .success true := by krfl

/-- `testContainsAnyFalseCondition` (BooleanExpressionEvaluatorTest) -/
example : evaluate env0 j!"age contains_any (12)" [(j!"age", .list [.int (1), .int (2), .int (3)])] none = .success false := by krfl

/-- `testContainsAllTrueCondition` (BooleanExpressionEvaluatorTest) -/
example : evaluate env0 j!"age contains_all (1,2)" [(j!"age", .list [.int (1), .int (2), .int (3)])] none = .success true := by krfl

/-- `testContainsAllFalseCondition` (BooleanExpressionEvaluatorTest) -/
example : evaluate env0 j!"age contains_all (2,5)" [(j!"age", .list [.int (1), .int (2), .int (3)])] none = .success false := by krfl

/-- `testComparisonWithArithmeticTrueCondition` (BooleanExpressionEvaluatorTest) -/
example : evaluate env0 j!"age > (5 + 10)" [(j!"age", .str j!"20")] none = .success true := by krfl

/-- `testComparisonWithArithmeticTrueConditionInverted` (BooleanExpressionEvaluatorTest) -/
example : evaluate env0 j!"(5 + 10) < age" [(j!"age", .str j!"20")] none = .success true := by krfl

/-- `testComparisonWithArithmeticFunction` (BooleanExpressionEvaluatorTest) -/
example : evaluate env0 j!"age > min (18, 25, 30)" [(j!"age", .str j!"20")] none = .success true := by krfl

/-- `testComparisonWithArithmeticVariableFunction` (BooleanExpressionEvaluatorTest) -/
example : evaluate env0 j!"age > max (numbers)" [(j!"age", .str j!"20"), (j!"numbers", .list [.int (1), .int (1), .int (2), .int (30)])] none = .success false := by krfl

/-- `testComparisonWithArithmeticFalseCondition` (BooleanExpressionEvaluatorTest) -/
example : evaluate env0 j!"age > (5 + 20)" [(j!"age", .str j!"20")] none = .success false := by krfl

/-- `testComparisonWithArithmeticFalseCondition1` (BooleanExpressionEvaluatorTest) -/
example : evaluate env0 j!"age > (5 + a)" [(j!"age", .str j!"20"), (j!"a", .int (20))] none = .success false := by krfl

/-- `testBooleanComparison` (BooleanExpressionEvaluatorTest) -/
example : evaluate env0 j!"age = (5 > 3)" [(j!"age", .bool true), (j!"a", .int (20))] none = .success true := by krfl

/-- `testNegativeComparison` (BooleanExpressionEvaluatorTest) -/
example : evaluate env0 j!"a > -10 AND a < -2" [(j!"a", .int (-6))] none = .success (true) := by krfl

/-- `testNullCheck` (BooleanExpressionEvaluatorTest) -/
example : evaluate env0 j!"b = null" [(j!"a", .dbl j!"2.7")] none = .success (true) := by krfl

/-- `testNullCheckInverted` (BooleanExpressionEvaluatorTest) -/
example : evaluate env0 j!"null = b" [(j!"a", .dbl j!"2.7")] none = .success (true) := by krfl

/-- `testNullCheck1` (BooleanExpressionEvaluatorTest) -/
example : evaluate env0 j!"a = null" [(j!"a", .dbl j!"2.7")] none = .success (false) := by krfl

/-- `testNotNullCheck` (BooleanExpressionEvaluatorTest) -/
example : evaluate env0 j!"a != null" [(j!"a", .dbl j!"2.7")] none = .success (true) := by krfl

/-- `testBooleanNullCheck` (BooleanExpressionEvaluatorTest) -/
example : evaluate env0 j!"b = null && a > 2" [(j!"a", .int (3))] none = .success (true) := by krfl

/-- `testArithmeticFunctionAndComparison` (BooleanExpressionEvaluatorTest) -/
example : evaluate env0 j!"len(a) = 4" [(j!"a", .str j!"test")] none = .success (true) := by krfl

/-- `testDateEqualityCorrectExpression` (BooleanExpressionEvaluatorTest) -/
example : evaluate env0 j!"created_date = 2023-03-05" [(j!"created_date", .date ⟨2023, 3, 5⟩)] none = .success true := by krfl

/-- `testDateEqualityIncorrectExpression` (BooleanExpressionEvaluatorTest) -/
example : evaluate env0 j!"created_date = 2023-03-06" [(j!"created_date", .date ⟨2023, 3, 5⟩)] none = .success false := by krfl

/-- `testDateGreaterThanCorrectExpression` (BooleanExpressionEvaluatorTest) -/
example : evaluate env0 j!"event_date > 2023-03-05" [(j!"event_date", .date ⟨2023, 6, 15⟩)] none = .success true := by krfl

/-- `testDateLessThanCorrectExpression` (BooleanExpressionEvaluatorTest) -/
example : evaluate env0 j!"birth_date < 2000-01-01" [(j!"birth_date", .date ⟨1990, 1, 1⟩)] none = .success true := by krfl

/-- `testDateTimeEqualityCorrectExpression` (BooleanExpressionEvaluatorTest) -/
example : evaluate env0 j!"timestamp = 2023-03-05 14:30:00" [(j!"timestamp", .datetime ⟨⟨2023, 3, 5⟩, 14, 30, 0, 0⟩)] none = .success true := by krfl

/-- `testDateTimeEqualityIncorrectExpression` (BooleanExpressionEvaluatorTest) -/
example : evaluate env0 j!"timestamp = 2023-03-05 14:31:00" [(j!"timestamp", .datetime ⟨⟨2023, 3, 5⟩, 14, 30, 0, 0⟩)] none = .success false := by krfl

/-- `testDateTimeGreaterThanCorrectExpression` (BooleanExpressionEvaluatorTest) -/
example : evaluate env0 j!"last_modified > 2023-03-05 14:30:00" [(j!"last_modified", .datetime ⟨⟨2023, 6, 15⟩, 10, 30, 0, 0⟩)] none = .success true := by krfl

/-- `testDateTimeLessThanCorrectExpression` (BooleanExpressionEvaluatorTest) -/
example : evaluate env0 j!"created_at < 2023-03-05 14:30:00" [(j!"created_at", .datetime ⟨⟨2023, 1, 1⟩, 9, 0, 0, 0⟩)] none = .success true := by krfl

/-- `testDateInClause` (BooleanExpressionEvaluatorTest) -/
example : evaluate env0 j!"holiday in (2023-12-24, 2023-12-25, 2023-12-26)" [(j!"holiday", .date ⟨2023, 12, 25⟩)] none = .success true := by krfl

/-- `testDateTimeInClause` (BooleanExpressionEvaluatorTest) -/
example : evaluate env0 j!"meeting_time in (2023-03-05 13:30:00, 2023-03-05 14:30:00, 2023-03-05 15:30:00)" [(j!"meeting_time", .datetime ⟨⟨2023, 3, 5⟩, 14, 30, 0, 0⟩)] none = .success true := by krfl

/-- `testComplexDateTimeExpression` (BooleanExpressionEvaluatorTest) -/
example : evaluate env0 j!"current_date >= start_date AND current_date <= end_date" [(j!"start_date", .date ⟨2023, 1, 1⟩), (j!"end_date", .date ⟨2023, 12, 31⟩), (j!"current_date", .date ⟨2023, 6, 15⟩)] none = .success true := by krfl

/-- `testDateEqualityWithStringData` (BooleanExpressionEvaluatorTest) -/
example : evaluate env0 j!"created_date = 2023-03-05" [(j!"created_date", .str j!"2023-03-05")] none = .success true := by krfl

/-- `testDateComparisonWithStringData` (BooleanExpressionEvaluatorTest) -/
example : evaluate env0 j!"event_date > 2023-03-05" [(j!"event_date", .str j!"2023-06-15")] none = .success true := by krfl

/-- `testDateTimeEqualityWithStringData` (BooleanExpressionEvaluatorTest) -/
example : evaluate env0 j!"timestamp = 2023-03-05 14:30:00" [(j!"timestamp", .str j!"2023-03-05 14:30:00")] none = .success true := by krfl

/-- `testDateTimeComparisonWithStringData` (BooleanExpressionEvaluatorTest) -/
example : evaluate env0 j!"last_modified > 2023-03-05 14:30:00" [(j!"last_modified", .str j!"2023-06-15 10:30:00")] none = .success true := by krfl

/-- `testMixedDateTypesComparison` (BooleanExpressionEvaluatorTest) -/
example : evaluate env0 j!"string_date > object_date" [(j!"string_date", .str j!"2023-06-15"), (j!"object_date", .date ⟨2023, 3, 5⟩)] none = .success true := by krfl

/-- `testMixedDateTimeTypesComparison` (BooleanExpressionEvaluatorTest) -/
example : evaluate env0 j!"string_datetime > object_datetime" [(j!"string_datetime", .str j!"2023-06-15 10:30:00"), (j!"object_datetime", .datetime ⟨⟨2023, 3, 5⟩, 14, 30, 0, 0⟩)] none = .success true := by krfl

/-- `testInvalidDateStringFormat` (BooleanExpressionEvaluatorTest) -/
example : evaluate env0 j!"bad_date = 2023-03-05" [(j!"bad_date", .str j!"03/05/2023")] none = .success false := by krfl

/-- `testInvalidDateTimeStringFormat` (BooleanExpressionEvaluatorTest) -/
example : evaluate env0 j!"bad_datetime = 2023-03-05 14:30:00" [(j!"bad_datetime", .str j!"2023-03-05T14:30:00")] none = .success false := by krfl

/-- `testStringDateAutoDetection` (BooleanExpressionEvaluatorTest) -/
example : evaluate env0 j!"date_string > 2023-01-01" [(j!"date_string", .str j!"2023-03-05"), (j!"regular_string", .str j!"hello world")] none = .success true := by krfl

/-- `testStringDateTimeAutoDetection` (BooleanExpressionEvaluatorTest) -/
example : evaluate env0 j!"datetime_string > 2023-01-01 10:00:00" [(j!"datetime_string", .str j!"2023-03-05 14:30:00"), (j!"regular_string", .str j!"hello world")] none = .success true := by krfl

/-- `testAutoDetectionInComplexExpressions` (BooleanExpressionEvaluatorTest) -/
example : evaluate env0 j!"current_date_str >= start_date_str AND current_date_str <= end_date_str" [(j!"start_date_str", .str j!"2023-01-01"), (j!"end_date_str", .str j!"2023-12-31"), (j!"current_date_str", .str j!"2023-06-15")] none = .success true := by krfl

/-- `testDaysElapsedFunction` (BooleanExpressionEvaluatorTest) -/
example : evaluate env0 j!"days_elapsed(created_date) > 0" [(j!"created_date", .date ⟨2023, 1, 1⟩)] none = .success true := by krfl

/-- `testDaysElapsedFunctionWithStringDate` (BooleanExpressionEvaluatorTest) -/
example : evaluate env0 j!"days_elapsed(created_date) > 300" [(j!"created_date", .str j!"2023-01-01")] none = .success true := by krfl

/-- `testDaysElapsedFunctionWithDirectDate` (BooleanExpressionEvaluatorTest) -/
example : evaluate env0 j!"days_elapsed(2023-01-01) > 300" [] none = .success true := by krfl

/-- `testSimpleAddOperationWithoutVariable` (ArithmeticExpressionEvaluatorTest) -/
example : evaluateArith env0 j!"5 + 5" [] = .success (.int (10)) := by krfl

/-- `testSimpleSubtractOperationWithoutVariable` (ArithmeticExpressionEvaluatorTest) -/
example : evaluateArith env0 j!"5 - 4" [] = .success (.int (1)) := by krfl

/-- `testSimpleMultiplyOperationWithoutVariable` (ArithmeticExpressionEvaluatorTest) -/
example : evaluateArith env0 j!"5 * 5" [] = .success (.int (25)) := by krfl

/-- `testSimpleDivideOperationWithoutVariable` (ArithmeticExpressionEvaluatorTest) -/
example : evaluateArith env0 j!"5 / 5" [] = .success (.int (1)) := by krfl

/-- `testSimpleDivideOperationWithoutVariable1` (ArithmeticExpressionEvaluatorTest) -/
example : decEquals (evaluateArith env0 j!"5 / 4" []) j!"1.25" = true := by krfl

/-- `testSimpleModulusOperationWithoutVariable` (ArithmeticExpressionEvaluatorTest) -/
example : evaluateArith env0 j!"10 % 4" [] = .success (.int (2)) := by krfl

/-- `testSimpleExponentOperationWithoutVariable` (ArithmeticExpressionEvaluatorTest) -/
example : evaluateArith env0 j!"2 ^ 4" [] = .success (.int (16)) := by krfl

/-- `testSimpleAddOperationWithVariable` (ArithmeticExpressionEvaluatorTest) -/
example : evaluateArith env0 j!"a + 5" [(j!"a", .int (10))] = .success (.int (15)) := by krfl

/-- `testSimpleSubtractOperationWithVariable` (ArithmeticExpressionEvaluatorTest) -/
example : evaluateArith env0 j!"a - 5" [(j!"a", .int (10))] = .success (.int (5)) := by krfl

/-- `testSimpleSubtractOperationWithTwoVariable` (ArithmeticExpressionEvaluatorTest) -/
example : evaluateArith env0 j!"a-b" [(j!"a", .int (10)), (j!"b", .int (5))] = .success (.int (5)) := by krfl

/-- `testStringEvaluation` (ArithmeticExpressionEvaluatorTest) -/
example : evaluateArith env0 j!"\"a-b\"" [(j!"a", .int (10)), (j!"b", .int (5))] = .success (.str j!"a-b") := by krfl

/-- `testSimpleMultiplyOperationWithVariable` (ArithmeticExpressionEvaluatorTest) -/
example : evaluateArith env0 j!"a * 5" [(j!"a", .int (10))] = .success (.int (50)) := by krfl

/-- `testSimpleDivideOperationWithVariable` (ArithmeticExpressionEvaluatorTest) -/
example : evaluateArith env0 j!"a / 5" [(j!"a", .int (10))] = .success (.int (2)) := by krfl

/-- `testSimpleModulusOperationWithVariable` (ArithmeticExpressionEvaluatorTest) -/
example : evaluateArith env0 j!"a % 5" [(j!"a", .int (10))] = .success (.int (0)) := by krfl

/-- `testSimpleExponentOperationWithVariable` (ArithmeticExpressionEvaluatorTest) -/
example : evaluateArith env0 j!"a ^ 5" [(j!"a", .int (10))] = .success (.int (100000)) := by krfl

/-- `testStringConcatenation` (ArithmeticExpressionEvaluatorTest) -/
example : evaluateArith env0 j!"a + \" \" + b" [(j!"a", .str j!"first"), (j!"b", .str j!"second")] = .success (.str j!"first second") := by krfl

/-- `testExpressionWithParenthesisNoVariable` (ArithmeticExpressionEvaluatorTest) -/
example : evaluateArith env0 j!"((5 * 2) + 10) * 2 + (1 + 3 * (10 / 2))" [(j!"a", .int (10))] = .success (.int (56)) := by krfl

/-- `testExpressionWithParenthesisWithVariable` (ArithmeticExpressionEvaluatorTest) -/
example : evaluateArith env0 j!"((5 * 2) + a) * 2 + (1 + 3 * (a / 2))" [(j!"a", .int (10))] = .success (.int (56)) := by krfl

/-- `testExpressionWithComparison` (ArithmeticExpressionEvaluatorTest) -/
example : isFailure (evaluateArith env0 j!"(a > (4 + 1))" [(j!"a", .int (10))]) = true := by krfl

/-- `testExpressionWithComparison` (ArithmeticExpressionEvaluatorTest) -/
example : evaluateArith env0 j!"(a > (4 + 1))" [(j!"a", .int (10))] = .failure .unsupportedToken := by krfl

/-- `testExpressionWithUnaryNode` (ArithmeticExpressionEvaluatorTest) -/
example : evaluateArith env0 j!"- a" [(j!"a", .int (10))] = .success (.int (-10)) := by krfl

/-- `testExpressionWithNestedUnaryNode` (ArithmeticExpressionEvaluatorTest) -/
example : evaluateArith env0 j!"- (a + 5)" [(j!"a", .int (10))] = .success (.int (-15)) := by krfl

/-- `testExpressionWithNestedUnaryNode1` (ArithmeticExpressionEvaluatorTest) -/
example : evaluateArith env0 j!"a" [(j!"a", .str j!"test")] = .success (.str j!"test") := by krfl

/-- `testUnaryNode` (ArithmeticExpressionEvaluatorTest) -/
example : evaluateArith env0 j!"-a" [(j!"a", .int (10))] = .success (.int (-10)) := by krfl

/-- `testDoubleUnaryNode` (ArithmeticExpressionEvaluatorTest) -/
example : evaluateArith env0 j!"--a" [(j!"a", .int (10))] = .success (.int (10)) := by krfl

/-- `testMinArithmeticFunctionInteger` (ArithmeticExpressionEvaluatorTest) -/
example : evaluateArith env0 j!"min (1,2,3)" [(j!"a", .int (10))] = .success (.int (1)) := by krfl

/-- `testMinArithmeticFunctionDouble` (ArithmeticExpressionEvaluatorTest) -/
example : evaluateArith env0 j!"min (1,2,3,4.5)" [(j!"a", .int (10))] = .success (.int (1)) := by krfl

/-- `testMaxArithmeticFunctionInteger` (ArithmeticExpressionEvaluatorTest) -/
example : evaluateArith env0 j!"max (1,2,3)" [(j!"a", .int (10))] = .success (.int (3)) := by krfl

/-- `testMaxArithmeticFunctionDouble` (ArithmeticExpressionEvaluatorTest) -/
example : decEquals (evaluateArith env0 j!"max (1,2,3,4.5)" [(j!"a", .int (10))]) j!"4.5" = true := by krfl

/-- `testAvgArithmeticFunctionInteger` (ArithmeticExpressionEvaluatorTest) -/
example : evaluateArith env0 j!"avg (1,2,3)" [(j!"a", .int (10))] = .success (.int (2)) := by krfl

/-- `testAvgArithmeticFunctionDouble` (ArithmeticExpressionEvaluatorTest) -/
example : decEquals (evaluateArith env0 j!"avg (1,2,3,4.5)" [(j!"a", .int (10))]) j!"2.625" = true := by krfl

/-- `testSumArithmeticFunctionInteger` (ArithmeticExpressionEvaluatorTest) -/
example : evaluateArith env0 j!"sum (1,2,3)" [(j!"a", .int (10))] = .success (.int (6)) := by krfl

/-- `testSumArithmeticFunctionDouble` (ArithmeticExpressionEvaluatorTest) -/
example : decEquals (evaluateArith env0 j!"sum (1,2,3,4.5)" [(j!"a", .int (10))]) j!"10.5" = true := by krfl

/-- `testMeanArithmeticFunctionInteger` (ArithmeticExpressionEvaluatorTest) -/
example : evaluateArith env0 j!"mean (1,2,3)" [(j!"a", .int (10))] = .success (.int (2)) := by krfl

/-- `testMeanArithmeticFunctionDouble` (ArithmeticExpressionEvaluatorTest) -/
example : decEquals (evaluateArith env0 j!"mean (1,2,3,4.5)" [(j!"a", .int (10))]) j!"2.625" = true := by krfl

/-- `testModeArithmeticFunctionIntegerVariable` (ArithmeticExpressionEvaluatorTest) -/
example : evaluateArith env0 j!"mode (a)" [(j!"a", .list [.int (1), .int (1), .int (2), .int (3)])] = .success (.int (1)) := by krfl

/-- `testModeArithmeticFunctionDouble` (ArithmeticExpressionEvaluatorTest) -/
example : evaluateArith env0 j!"mode (1,2,3,4.5)" [(j!"a", .int (10))] = .success (.int (1)) := by krfl

/-- `testMedianArithmeticFunctionInteger` (ArithmeticExpressionEvaluatorTest) -/
example : evaluateArith env0 j!"median (3, 13, 2, 34, 11, 17, 27, 47)" [(j!"a", .int (10))] = .success (.int (15)) := by krfl

/-- `testIntArithmeticFunction` (ArithmeticExpressionEvaluatorTest) -/
example : evaluateArith env0 j!"int (2.7)" [(j!"a", .int (10))] = .success (.int (2)) := by krfl

/-- `testIntArithmeticFunctionWithVariable` (ArithmeticExpressionEvaluatorTest) -/
example : evaluateArith env0 j!"int (a)" [(j!"a", .dbl j!"2.7")] = .success (.int (2)) := by krfl

/-- `testLenArithmeticFunctionString` (ArithmeticExpressionEvaluatorTest) -/
example : evaluateArith env0 j!"len (a)" [(j!"a", .str j!"lorem")] = .success (.int (5)) := by krfl

/-- `testLenArithmeticFunctionIntegerVariable` (ArithmeticExpressionEvaluatorTest) -/
example : evaluateArith env0 j!"len (a)" [(j!"a", .list [.int (1), .int (1), .int (2), .int (3)])] = .success (.int (4)) := by krfl

/-- `testNestedFunctions` (ArithmeticExpressionEvaluatorTest) -/
example : evaluateArith env0 j!"max(1,2,min(5,7,87))" [(j!"a", .dbl j!"2.7")] = .success (.int (5)) := by krfl

/-- `testNestedFunctions1` (ArithmeticExpressionEvaluatorTest) -/
example : evaluateArith env0 j!"max(1,2,min(5,7,87,min(1,2)))" [(j!"a", .dbl j!"2.7")] = .success (.int (2)) := by krfl

end BoolParser.RepoTests
