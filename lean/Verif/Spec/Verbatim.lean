import Verif.Spec.Tokens
/-!
# How a message quotes a text that had to be repaired (for C102)
-/

namespace BoolParser.Spec

/-- What stands in a quotation for something the parser looked for in vain, and for the end of the text. -/
def marks : List JStr := [j!"<missing '('>", j!"<missing ')'>", j!"<missing IN>", j!"<missing TO>", j!"<EOF>"]

/-- `x` is written with the tokens `p`, all of them and in their order, with nothing between them except marks. -/
inductive Spelt : List JStr → JStr → Prop
  | nil : Spelt [] []
  | token {t p x} : Spelt p x → Spelt (t :: p) (t ++ x)
  | mark {m p x} : m ∈ marks → Spelt p x → Spelt p (m ++ x)

/-- `x` quotes a piece of the text with the tokens `ts`, perhaps with marks in it. -/
def Quotes (ts : List JStr) (x : JStr) : Prop := ∃ pre p post, ts = pre ++ p ++ post ∧ Spelt p x

/-- What the messages of the parser say of what they quote. -/
def reproaches : List JStr := [j!"Array does not support this expression ", j!"Error parsing expression for the string ",
  j!"Error parsing not expression for the string ", j!"Error parsing binary expression for the string "]

end BoolParser.Spec
