import Verif.Model.Api
import Verif.Util.KRfl
/-!
# The repository's parser tests, run on the model

Hand translation of
`src/test/java/com/github/sidhant92/boolparser/parser/antlr/BooleanFilterBoolParserTest.java`.
Left out: `a contains_all ("a", "b"` (line 372) and `min abc` (line 441), which exercise ANTLR's error
recovery.
-/

namespace BoolParser.ParserTests

/-- Shorthand for a field node. -/
def fld (s : JStr) : Node := .field (some s)
/-- Shorthand for an integer literal node. -/
def num (n : Int) : Node := .unary .integer (.int n)
/-- Shorthand for a string literal node. -/
def txt (s : JStr) : Node := .unary .string (.str s)
/-- Parse without default field. -/
def P (s : JStr) : Outcome Node := parseExpression s none

example : P j!"not false" = .success (.not_ (.unary .boolean (.bool false))) := by krfl
example : P j!"not abc" = .success (.not_ (.unary .string (.str j!"abc"))) := by krfl
example : P j!"name = 'test'" = .success (.cmp (fld j!"name") (txt j!"test") .eq .string) := by krfl
example : P j!"name = \"te'st\"" = .success (.cmp (fld j!"name") (txt j!"te'st") .eq .string) := by krfl
example : P j!"name = 'te\"st'" = .success (.cmp (fld j!"name") (txt j!"te\"st") .eq .string) := by krfl
example : P j!"age=44" = .success (.cmp (fld j!"age") (num 44) .eq .integer) := by krfl
example : P j!"age=1611473334114" =
    .success (.cmp (fld j!"age") (.unary .long (.long 1611473334114)) .eq .long) := by krfl
example : P j!"age=44.34" =
    .success (.cmp (fld j!"age") (.unary .decimal (.dec ⟨4434, 2⟩)) .eq .decimal) := by krfl
example : P j!"age 18 TO 44" = .success (.range j!"age" (.int 18) (.int 44) .integer .integer) := by krfl
example : P j!"age > a" = .success (.cmp (fld j!"age") (fld j!"a") .gt .string) := by krfl
example : P j!"age 18.4 TO 44.2" =
    .success (.range j!"age" (.dec ⟨184, 1⟩) (.dec ⟨442, 1⟩) .decimal .decimal) := by krfl
example : P j!"name = 'test' OR age=33" = .success (.or_ (.cmp (fld j!"name") (txt j!"test") .eq .string)
    (.cmp (fld j!"age") (num 33) .eq .integer)) := by krfl
example : P j!"NOT (name = 'test')" =
    .success (.not_ (.cmp (fld j!"name") (txt j!"test") .eq .string)) := by krfl
example : P j!"(agel=44 AND cityl = 'abc') OR (ager=33 AND cityr = 'dummy')" = .success
    (.or_ (.and_ (.cmp (fld j!"agel") (num 44) .eq .integer) (.cmp (fld j!"cityl") (txt j!"abc") .eq .string))
      (.and_ (.cmp (fld j!"ager") (num 33) .eq .integer)
        (.cmp (fld j!"cityr") (txt j!"dummy") .eq .string))) := by krfl
example : P j!"age IN (12,45)" = .success (.inn j!"age" [num 12, num 45]) := by krfl
example : P j!"age not IN (12,45)" = .success (.not_ (.inn j!"age" [num 12, num 45])) := by krfl
example : P j!"name IN ('abc', 'def', 'abc, def')" =
    .success (.inn j!"name" [txt j!"abc", txt j!"def", txt j!"abc, def"]) := by krfl
example : P j!"a" = .success (fld j!"a") := by krfl
example : P j!"a contains_any (1,2,3)" =
    .success (.array j!"a" .containsAny [num 1, num 2, num 3]) := by krfl
example : P j!"a + b" = .success (.arith .add (fld j!"a") (fld j!"b")) := by krfl
example : P j!"20.5 + 5" = .success (.arith .add (.unary .decimal (.dec ⟨205, 1⟩)) (num 5)) := by krfl
example : P j!"min (1,2,3)" = .success (.func .min [num 1, num 2, num 3]) := by krfl
example : P j!"min(abc)" = .success (.func .min [fld j!"abc"]) := by krfl
example : P j!"false + 5" = .success (.arith .add (.unary .boolean (.bool false)) (num 5)) := by krfl
example : P j!"a > (10 + 20)" =
    .success (.cmp (fld j!"a") (.arith .add (num 10) (num 20)) .gt .string) := by krfl
example : P j!"created_date = 2023-03-05" =
    .success (.cmp (fld j!"created_date") (.unary .date (.date ⟨2023, 3, 5⟩)) .eq .date) := by krfl
example : P j!"timestamp = 2023-03-05 14:30:00" = .success (.cmp (fld j!"timestamp")
    (.unary .datetime (.datetime ⟨⟨2023, 3, 5⟩, 14, 30, 0, 0⟩)) .eq .datetime) := by krfl

end BoolParser.ParserTests
