import Verif.Spec.Expr
import Verif.Model.Lexer
/-!
# Cutting a text into tokens

A complete description of the tokeniser that does not mention its rules as a program: what the lexemes
are, which kind of token a lexeme is, and how a text is cut. Only the names of the token kinds (`TK`) are
taken from the model.
-/

namespace BoolParser.Spec
open BoolParser

/-- Operators, keywords and punctuation, with the kind of token each of them is. -/
def tokenTable : List (JStr × TK) :=
  [ (j!",", .comma), (j!"(", .lparen), (j!")", .rparen),
    (j!"IN", .kIn), (j!"in", .kIn), (j!"TO", .kTo), (j!"to", .kTo),
    (j!"AND", .kAnd), (j!"and", .kAnd), (j!"&&", .kAnd), (j!"OR", .kOr), (j!"or", .kOr), (j!"||", .kOr),
    (j!"NOT", .kNot), (j!"not", .kNot), (j!"TRUE", .kTrue), (j!"true", .kTrue), (j!"FALSE", .kFalse),
    (j!"false", .kFalse), (j!"CONTAINS_ALL", .cAll), (j!"contains_all", .cAll), (j!"CONTAINS_ANY", .cAny),
    (j!"contains_any", .cAny),
    (j!"MIN", .fn .min), (j!"min", .fn .min), (j!"MAX", .fn .max), (j!"max", .fn .max),
    (j!"AVG", .fn .avg), (j!"avg", .fn .avg), (j!"SUM", .fn .sum), (j!"sum", .fn .sum),
    (j!"MEAN", .fn .mean), (j!"mean", .fn .mean), (j!"MODE", .fn .mode), (j!"mode", .fn .mode),
    (j!"MEDIAN", .fn .median), (j!"median", .fn .median), (j!"LEN", .fn .len), (j!"len", .fn .len),
    (j!"INT", .fn .int), (j!"int", .fn .int), (j!"DAYS_ELAPSED", .fn .daysElapsed),
    (j!"days_elapsed", .fn .daysElapsed),
    (j!"+", .arith .add), (j!"-", .arith .sub), (j!"*", .arith .mul), (j!"/", .arith .div),
    (j!"%", .arith .mod), (j!"^", .arith .exp),
    (j!"=", .cmp .eq), (j!"!=", .cmp .ne), (j!">", .cmp .gt), (j!">=", .cmp .ge), (j!"<", .cmp .lt),
    (j!"<=", .cmp .le) ]

/-- A text in single or double quotes that does not contain that quote. -/
def IsQuoted (t : JStr) : Prop := ∃ q s, (q = '\'' ∨ q = '"') ∧ q ∉ s ∧ t = q :: (s ++ [q])

/-- Exactly `n` digits. -/
def HasDigits (n : Nat) (s : JStr) : Prop := s.length = n ∧ s.all isDigit = true

/-- `dddd-dd-dd`. -/
def IsDateText (t : JStr) : Prop :=
  ∃ y m d, HasDigits 4 y ∧ HasDigits 2 m ∧ HasDigits 2 d ∧ t = y ++ '-' :: (m ++ '-' :: d)

/-- `dddd-dd-dd dd:dd:dd`. -/
def IsDateTimeText (t : JStr) : Prop :=
  ∃ x h m s, IsDateText x ∧ HasDigits 2 h ∧ HasDigits 2 m ∧ HasDigits 2 s ∧
    t = x ++ ' ' :: (h ++ ':' :: (m ++ ':' :: s))

/-- A lexeme: an operator, keyword or punctuation mark, a quoted text, a date, a date-time, or a word of
letters, digits, `_` and `.`. -/
def IsLexeme (t : JStr) : Prop :=
  (∃ k, (t, k) ∈ tokenTable) ∨ IsQuoted t ∨ IsDateText t ∨ IsDateTimeText t
  ∨ (t ≠ [] ∧ t.all isNameChar = true)

/-- Digits, point, digits. -/
def IsDecimalText (t : JStr) : Prop := ∃ a b, IsDigits a ∧ IsDigits b ∧ t = a ++ '.' :: b

/-- A digit and at least two dotted components of digits. -/
def IsVersionText (t : JStr) : Prop :=
  ∃ c p q ps, isDigit c = true ∧ (∀ r ∈ p :: q :: ps, IsDigits r) ∧ t = c :: dots (p :: q :: ps)

/-- The kind of token a lexeme is. -/
inductive Classified : JStr → TK → Prop
  | table {t : JStr} {k : TK} : (t, k) ∈ tokenTable → Classified t k
  | integer {t : JStr} : IsDigits t → Classified t .integer
  | decimal {t : JStr} : IsDecimalText t → Classified t .decimal
  | version {t : JStr} : IsVersionText t → Classified t .version
  | date {t : JStr} : IsDateText t → Classified t .date
  | datetime {t : JStr} : IsDateTimeText t → Classified t .datetime
  | quoted {t : JStr} : IsQuoted t → Classified t .word
  | name {t : JStr} : t ≠ [] → t.all isNameChar = true → (∀ k, (t, k) ∉ tokenTable) → ¬ IsDigits t →
      ¬ IsDecimalText t → ¬ IsVersionText t → Classified t .field

/-- What is dropped where no lexeme starts: after an opening quote that is never closed everything, after
a lone `!`, `&` or `|` one more character, otherwise the character itself. -/
def Dropped (x r : JStr) : Prop :=
  (∃ q y, (q = '\'' ∨ q = '"') ∧ x = q :: y ∧ r = []) ∨
  (∃ c, c ∈ ['!', '&', '|'] ∧ ((∃ c', x = [c, c']) ∨ (x = [c] ∧ r = []))) ∨
  (∃ c, c ∉ ['!', '&', '|', '\'', '"'] ∧ x = [c])

/-- `Cut s ts`: the text `s` is cut into the tokens `ts`. White space between tokens is skipped; the next
token is the longest lexeme; where no lexeme starts, something is dropped. -/
inductive Cut : JStr → List JStr → Prop
  | done : Cut [] []
  | blank {c : Char} {r : JStr} {ts : List JStr} : isBlank c = true → Cut r ts → Cut (c :: r) ts
  | token {t r : JStr} {ts : List JStr} : IsLexeme t → (∀ t', IsLexeme t' → t' <+: t ++ r → t'.length ≤ t.length) →
      Cut r ts → Cut (t ++ r) (t :: ts)
  | dropped {x r : JStr} {ts : List JStr} : (∀ c, x.head? = some c → isBlank c = false) →
      (∀ t', IsLexeme t' → ¬ t' <+: x ++ r) → Dropped x r → Cut r ts → Cut (x ++ r) ts

end BoolParser.Spec
