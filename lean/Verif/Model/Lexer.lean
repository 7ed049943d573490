import Verif.Model.Functions
/-!
# The lexer (`BooleanExpression.g4:79-132` run by ANTLR)

At every position the longest match over all lexer rules wins, ties go to the rule written first.
White space is skipped. Where no rule matches, ANTLR reports an error, drops the characters it has
looked at and goes on.
-/

namespace BoolParser

/-- Token types. `fn`, `arith`, `cmp`, `and_`/`or_` group the keyword and operator rules.
`BooleanExpression.g4:79-121`; `comma` is the implicit token of the literal `','` in line 53. -/
inductive TK where
  | comma | kIn | kTo | kAnd | kOr | kNot | kTrue | kFalse
  | cAll | cAny
  | fn (f : FuncType)
  | arith (op : ArithOp)
  | cmp (op : CmpOp)
  | lparen | rparen
  | decimal | version | integer | date | datetime | word | field
  | eof
deriving DecidableEq, Repr

/-- A token: type and text. -/
structure Token where
  kind : TK
  text : JStr
deriving DecidableEq, Repr

/-- The end-of-input token (ANTLR's text for it is `<EOF>`). -/
def eofTok : Token := ⟨.eof, j!"<EOF>"⟩

/-- What a lexer rule produces. -/
inductive LexKind where
  | tok (k : TK)
  | ws
deriving DecidableEq, Repr

/-- `WS: [ \r\t\u000C\n]`, `BooleanExpression.g4:117`. -/
def isWs (c : Char) : Bool :=
  c == ' ' || c == '\r' || c == '\t' || c == '\n' || c.toNat == 12

/-- Characters of `FIELD`: letters, digits, `_`, `.` (`BooleanExpression.g4:121-122`). -/
def isFieldChar (c : Char) : Bool :=
  (decide (97 ≤ c.toNat) && decide (c.toNat ≤ 122)) ||
  (decide (65 ≤ c.toNat) && decide (c.toNat ≤ 90)) || isDigit c || c == '_' || c == '.'

/-- Length of a non-empty match, `none` for no match. -/
def nz (n : Nat) : Option Nat := if n = 0 then none else some n

/-- A rule that is one literal. -/
def mLit (l s : JStr) : Option Nat := if l.isPrefixOf s then some l.length else none

/-- A rule with two spellings. -/
def mLit2 (l1 l2 s : JStr) : Option Nat := if l1.isPrefixOf s then some l1.length else mLit l2 s

/-- `INTEGER: [0-9]+`, line 114. -/
def mInteger (s : JStr) : Option Nat := nz (s.takeWhile isDigit).length

/-- `DECIMAL: [0-9]+ '.' [0-9]+`, line 112. -/
def mDecimal (s : JStr) : Option Nat :=
  let n := (s.takeWhile isDigit).length
  if n = 0 then none
  else match s.drop n with
    | '.' :: r =>
      let m := (r.takeWhile isDigit).length
      if m = 0 then none else some (n + 1 + m)
    | _ => none

/-- `('.' INTEGER)*` at the start of `s`: total length matched. The first argument is fuel. -/
def dotInts : Nat → JStr → Nat
  | 0, _ => 0
  | f + 1, s =>
    match s with
    | '.' :: r =>
      let m := (r.takeWhile isDigit).length
      if m = 0 then 0 else 1 + m + dotInts f (r.drop m)
    | _ => 0

/-- `APP_VERSION: [0-9] ('.' INTEGER)+`, line 113. -/
def mVersion : JStr → Option Nat
  | [] => none
  | c :: r =>
    if isDigit c then
      let m := dotInts r.length r
      if m = 0 then none else some (1 + m)
    else none

/-- Digit pattern: `d` stands for `[0-9]`, other characters for themselves. -/
def mPat : JStr → JStr → Bool
  | [], _ => true
  | _ :: _, [] => false
  | p :: ps, c :: cs => (if p = 'd' then isDigit c else p == c) && mPat ps cs

/-- `DATE: dddd-dd-dd`, lines 115, 126-128. -/
def mDate (s : JStr) : Option Nat := if mPat j!"dddd-dd-dd" s then some 10 else none

/-- `DATETIME: dddd-dd-dd dd:dd:dd`, lines 116, 130-132. -/
def mDateTime (s : JStr) : Option Nat := if mPat j!"dddd-dd-dd dd:dd:dd" s then some 19 else none

/-- `WS`, line 117. -/
def mWs (s : JStr) : Option Nat := nz (s.takeWhile isWs).length

/-- `WORD`: a quote, anything up to the first same quote (non-greedy), that quote; lines 118-120. -/
def mWord : JStr → Option Nat
  | [] => none
  | q :: r =>
    if q = '\'' ∨ q = '"' then
      let n := (r.takeWhile (· ≠ q)).length
      if n < r.length then some (n + 2) else none
    else none

/-- `FIELD`, line 121. -/
def mField (s : JStr) : Option Nat := nz (s.takeWhile isFieldChar).length

/-- All lexer rules in grammar order (`BooleanExpression.g4`: literal `','` of line 53, then 79-121).
Simplification: the rules `SQSTR`, `DQSTR`, `ALPHANUMERIC`, `SQ`, `DQ` can only tie with or lose against
earlier rules, so they never produce a token and are left out. -/
def lexRules : List (LexKind × (JStr → Option Nat)) :=
  [ (.tok .comma, mLit j!","),
    (.tok .kIn, mLit2 j!"IN" j!"in"),
    (.tok .kTo, mLit2 j!"TO" j!"to"),
    (.tok .kAnd, fun s => if j!"AND".isPrefixOf s then some 3 else mLit2 j!"and" j!"&&" s),
    (.tok .kOr, fun s => if j!"OR".isPrefixOf s then some 2 else mLit2 j!"or" j!"||" s),
    (.tok .kNot, mLit2 j!"NOT" j!"not"),
    (.tok .kTrue, mLit2 j!"TRUE" j!"true"),
    (.tok .kFalse, mLit2 j!"FALSE" j!"false"),
    (.tok .cAll, mLit2 j!"CONTAINS_ALL" j!"contains_all"),
    (.tok .cAny, mLit2 j!"CONTAINS_ANY" j!"contains_any"),
    (.tok (.fn .min), mLit2 j!"MIN" j!"min"),
    (.tok (.fn .max), mLit2 j!"MAX" j!"max"),
    (.tok (.fn .avg), mLit2 j!"AVG" j!"avg"),
    (.tok (.fn .sum), mLit2 j!"SUM" j!"sum"),
    (.tok (.fn .mean), mLit2 j!"MEAN" j!"mean"),
    (.tok (.fn .mode), mLit2 j!"MODE" j!"mode"),
    (.tok (.fn .median), mLit2 j!"MEDIAN" j!"median"),
    (.tok (.fn .len), mLit2 j!"LEN" j!"len"),
    (.tok (.fn .int), mLit2 j!"INT" j!"int"),
    (.tok (.fn .daysElapsed), mLit2 j!"DAYS_ELAPSED" j!"days_elapsed"),
    (.tok (.arith .add), mLit j!"+"),
    (.tok (.arith .sub), mLit j!"-"),
    (.tok (.arith .mul), mLit j!"*"),
    (.tok (.arith .div), mLit j!"/"),
    (.tok (.arith .mod), mLit j!"%"),
    (.tok (.arith .exp), mLit j!"^"),
    (.tok (.cmp .ne), mLit j!"!="),
    (.tok (.cmp .gt), mLit j!">"),
    (.tok (.cmp .ge), mLit j!">="),
    (.tok (.cmp .lt), mLit j!"<"),
    (.tok (.cmp .le), mLit j!"<="),
    (.tok (.cmp .eq), mLit j!"="),
    (.tok .lparen, mLit j!"("),
    (.tok .rparen, mLit j!")"),
    (.tok .decimal, mDecimal),
    (.tok .version, mVersion),
    (.tok .integer, mInteger),
    (.tok .date, mDate),
    (.tok .datetime, mDateTime),
    (.ws, mWs),
    (.tok .word, mWord),
    (.tok .field, mField) ]

/-- Longest match, first rule on ties. -/
def bestMatch (s : JStr) : List (LexKind × (JStr → Option Nat)) → Option (LexKind × Nat)
  | [] => none
  | (k, m) :: rs =>
    match m s, bestMatch s rs with
    | none, r => r
    | some n, none => some (k, n)
    | some n, some (k', n') => if n < n' then some (k', n') else some (k, n)

/-- Number of characters dropped when no rule matches (ANTLR `Lexer.recover` after
`LexerNoViableAltException`): the characters consumed while a rule was still possible (`!`, `&`, `|`, or
a quote and everything after it) plus the offending character if there is one. -/
def junkLen : JStr → Nat
  | [] => 0
  | c :: r =>
    if c = '\'' ∨ c = '"' then r.length + 1
    else if c = '!' ∨ c = '&' ∨ c = '|' then min 2 (r.length + 1)
    else 1

/-- A piece of the input. -/
inductive LexItem where
  | tok (t : Token)
  | ws (s : JStr)
  | junk (s : JStr)
deriving DecidableEq, Repr

/-- The text of a piece. -/
def LexItem.text : LexItem → JStr
  | .tok t => t.text
  | .ws s => s
  | .junk s => s

/-- One step of the lexer on non-empty input: the next piece and its length. -/
def lexStep (s : JStr) : LexItem × Nat :=
  match bestMatch s lexRules with
  | some (.tok k, n) => (.tok ⟨k, s.take n⟩, n)
  | some (.ws, n) => (.ws (s.take n), n)
  | none => (.junk (s.take (junkLen s)), junkLen s)

/-- The lexer loop; the first argument is fuel (the input length suffices, every piece is non-empty). -/
def lexGo : Nat → JStr → List LexItem
  | 0, _ => []
  | f + 1, s =>
    match s with
    | [] => []
    | c :: r =>
      let p := lexStep (c :: r)
      p.1 :: lexGo f ((c :: r).drop p.2)

/-- All pieces of the input. -/
def lexItems (s : JStr) : List LexItem := lexGo s.length s

/-- The token of a piece, if it is one. -/
def LexItem.tok? : LexItem → Option Token
  | .tok t => some t
  | _ => none

/-- The token sequence the parser sees (`CommonTokenStream`, without the final EOF token). -/
def lex (s : JStr) : List Token := (lexItems s).filterMap LexItem.tok?

end BoolParser
