import Verif.Spec.DateTexts
/-!
# The values that `+` joins as texts
-/

namespace BoolParser.Spec
open BoolParser

/-- Values that `+` treats as text: ordinary strings (not read as a day or a moment), booleans, versions, and objects that
are none of the other kinds. -/
inductive Textual : Value → Prop
  | str {s : JStr} : Ordinary s → Textual (.str s)
  | bool (b : Bool) : Textual (.bool b)
  | ver (s : JStr) : Textual (.ver s)
  | list (xs : List Value) : Textual (.list xs)
  | coll (xs : List Value) : Textual (.coll xs)
  | arr (t : JStr) (xs : List Value) : Textual (.arr t xs)
  | map (es : List (JStr × Value)) : Textual (.map es)
  | other (t : JStr) : Textual (.other t)

/-- Values that `+` accepts. -/
def Addable (v : Value) : Prop := Textual v ∨ ∃ x, Num v x

end BoolParser.Spec
