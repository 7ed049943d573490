import Verif.Spec.Numbers
/-!
# The same text in the digits of another script
-/

namespace BoolParser.Spec
open BoolParser

/-- The texts differ only in the scripts of their digits. -/
def Rewritten (s t : JStr) : Prop := List.Forall₂ (fun c d => c = d ∨ ∃ n, DigitOf c n ∧ DigitOf d n) s t

end BoolParser.Spec
