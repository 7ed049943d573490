import Verif.Model.Base
/-!
# How names and literals are written

An independent description of the texts a user writes for fields and literals.
-/

namespace BoolParser.Spec
open BoolParser

/-- ASCII letter. -/
def isLetter (c : Char) : Bool :=
  (decide (97 ≤ c.toNat) && decide (c.toNat ≤ 122)) || (decide (65 ≤ c.toNat) && decide (c.toNat ≤ 90))

/-- Character of a field name: letter, digit, `_` or `.`. -/
def isNameChar (c : Char) : Bool := isLetter c || isDigit c || c == '_' || c == '.'

/-- The reserved words, in their two spellings. -/
def keywords : List JStr :=
  [j!"IN", j!"in", j!"TO", j!"to", j!"AND", j!"and", j!"OR", j!"or", j!"NOT", j!"not", j!"TRUE", j!"true",
   j!"FALSE", j!"false", j!"CONTAINS_ALL", j!"contains_all", j!"CONTAINS_ANY", j!"contains_any",
   j!"MIN", j!"min", j!"MAX", j!"max", j!"AVG", j!"avg", j!"SUM", j!"sum", j!"MEAN", j!"mean",
   j!"MODE", j!"mode", j!"MEDIAN", j!"median", j!"LEN", j!"len", j!"INT", j!"int",
   j!"DAYS_ELAPSED", j!"days_elapsed"]

/-- A field name: starts with a letter or `_`, goes on with letters, digits, `_`, `.`, and is not a
reserved word. -/
def IsName (f : JStr) : Prop :=
  (∃ c cs, f = c :: cs ∧ (isLetter c = true ∨ c = '_')) ∧ f.all isNameChar = true ∧ f ∉ keywords

instance (f : JStr) : Decidable (∃ c cs, f = c :: cs ∧ (isLetter c = true ∨ c = '_')) :=
  match f with
  | [] => isFalse (by rintro ⟨c, cs, h, _⟩; cases h)
  | c :: cs =>
    if h : isLetter c = true ∨ c = '_' then isTrue ⟨c, cs, rfl, h⟩
    else isFalse (by rintro ⟨c', cs', h', h''⟩; cases h'; exact h h'')

instance (f : JStr) : Decidable (IsName f) := inferInstanceAs (Decidable (_ ∧ _ ∧ _))

/-- A non-empty digit sequence. -/
def IsDigits (s : JStr) : Prop := s ≠ [] ∧ s.all isDigit = true

instance (s : JStr) : Decidable (IsDigits s) := inferInstanceAs (Decidable (_ ∧ _))

end BoolParser.Spec
