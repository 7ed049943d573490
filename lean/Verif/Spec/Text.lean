import Verif.Spec.Syntax
/-!
# Writing lexemes as text

An expression is written as a sequence of lexemes (names, literals, operators, parentheses) with any
amount of white space before, between and after them. White space may be left out wherever the two
neighbours do not run into each other.
-/

namespace BoolParser.Spec
open BoolParser

/-- Blank, tab, line feed, carriage return, form feed. -/
def isBlank (c : Char) : Bool := c == ' ' || c == '\t' || c == '\n' || c == '\r' || c.toNat == 12

/-- `next` written directly after the lexeme `l` would be read as part of it: two words meet, a
four-digit number meets `-` (the start of a date), or `<` / `>` meets `=`. -/
def runsInto (l next : JStr) : Bool :=
  (l.getLast?.any isNameChar && next.head?.any isNameChar)
  || (l.length == 4 && l.all isDigit && next.head? == some '-')
  || ((l == j!"<" || l == j!">") && next.head? == some '=')

/-- `Written ls s`: the text `s` consists of the lexemes `ls` and white space. -/
inductive Written : List JStr → JStr → Prop
  | nil {w : JStr} : w.all isBlank = true → Written [] w
  | cons {w l r : JStr} {ls : List JStr} : w.all isBlank = true → Written ls r → runsInto l r = false →
      Written (l :: ls) (w ++ l ++ r)

/-- One way of writing: a blank before every lexeme. -/
def spaced : List JStr → JStr
  | [] => []
  | l :: ls => ' ' :: (l ++ spaced ls)

end BoolParser.Spec
