import Verif.Spec.Paths
import Verif.Spec.Tokens
import Verif.Spec.Expr
/-!
# The names a text mentions
-/

namespace BoolParser.Spec
open BoolParser

/-- Begins with a digit or a sign, as the texts of numbers and dates do. -/
def NumberLike (f : JStr) : Prop := ∃ c r, f = c :: r ∧ (isDigit c = true ∨ c = '-' ∨ c = '+')

/-- The text of the value of a number in `ts`; or, if there is a date in `ts`, a text that begins as dates do. -/
def NumberName (ts : List JStr) (f : JStr) : Prop :=
  (∃ l : Lit, l.Valid ∧ l.isNumber = true ∧ l.text ∈ ts ∧ f = l.value.text) ∨
  ((∃ t ∈ ts, IsDateText t ∨ IsDateTimeText t) ∧ NumberLike f)

/-- The names, other than field names, that an evaluation of a text with lexemes `ts` may look up in the data. A
literal or a word of the language is looked up only where a yes or no is expected (`NOT 'x'`, `NOT 5`): the inside of
a quoted text, the text of the value of a number or a date, any other lexeme, or `<EOF>` if the operand of NOT is missing. -/
def LiteralName (ts : List JStr) (f : JStr) : Prop :=
  (f ∈ ts ∧ ¬ Classified f .field) ∨ (∃ q, (q = '\'' ∨ q = '"') ∧ q :: (f ++ [q]) ∈ ts) ∨ NumberName ts f ∨ f = j!"<EOF>"

/-- All the names: the field names in the text, the default field, and the texts of literals. -/
def Mentions (ts : List JStr) (df : Option JStr) (f : JStr) : Prop :=
  (f ∈ ts ∧ Classified f .field) ∨ df = some f ∨ LiteralName ts f

/-- The two maps have the same value, or both none, for the name `f`. (The empty name is an ordinary key.) -/
def SameAt (f : JStr) (d d' : Data) : Prop :=
  AgreeOn f d d' ∧ (f = [] → ∀ v, HasEntry d [] v ↔ HasEntry d' [] v)

/-- A value that `d` has for the name `f`, `d'` has too. -/
def KeptAt (f : JStr) (d d' : Data) : Prop :=
  (∀ ks v, Names f ks → Reaches d ks v → Reaches d' ks v) ∧ (f = [] → ∀ v, HasEntry d [] v → HasEntry d' [] v)

/-- The map has no value for the name `f`: there is none at the end of the path it names. (The empty name is an
ordinary key.) -/
def Absent (d : Data) (f : JStr) : Prop :=
  (∃ ks, Names f ks ∧ Missing d ks) ∨ (f = [] ∧ ∀ v, HasEntry d [] v → v = .null)

/-- The text is at most one lexeme, in any number of parentheses. -/
def SingleOperand (ts : List JStr) : Prop :=
  ∃ n xs, xs.length ≤ 1 ∧ ts = List.replicate n j!"(" ++ xs ++ List.replicate n j!")"

/-- A whole number too large for 64 bits. -/
def TooLarge (t : JStr) : Prop := IsDigits t ∧ 9223372036854775807 < digitsValue t

/-- The lexeme `t` of a text evaluated with `d` and the lexeme `t'` of a text evaluated with `d'` correspond: they are
the same, and if they are a field name the maps agree on it; or they are two field names under which the two maps
hold the same value (or both none), and neither or both are the word `null`. -/
def Renames (d d' : Data) (t t' : JStr) : Prop :=
  (t' = t ∧ (Classified t .field → SameAt t d d')) ∨
  (Classified t .field ∧ Classified t' .field ∧ (lower t = j!"null" ↔ lower t' = j!"null") ∧
    ∃ ks ks', Names t ks ∧ Names t' ks' ∧ ∀ v, Reaches d ks v ↔ Reaches d' ks' v)

/-- The same lexeme, or two spellings of the same keyword or operator. -/
def SameKeyword (t t' : JStr) : Prop := t' = t ∨ ∃ k, (t, k) ∈ tokenTable ∧ (t', k) ∈ tokenTable

/-- TRUE, FALSE, AND and OR in all their spellings. -/
def logicWords : List JStr :=
  [j!"TRUE", j!"true", j!"FALSE", j!"false", j!"AND", j!"and", j!"&&", j!"OR", j!"or", j!"||"]

end BoolParser.Spec
