import Verif.Model.Message
/-!
# Outcomes with and without the key of the message (for C97)
-/

namespace BoolParser.Spec
open BoolParser

/-- The outcome without the key. -/
def unsaid {α : Type} : Except Complaint α → Result α
  | .ok a => .ok a
  | .error c => .error c.exn

end BoolParser.Spec
