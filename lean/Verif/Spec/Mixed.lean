import Verif.Spec.DateTexts
/-!
# Kinds of values that cannot be compared with each other
-/

namespace BoolParser.Spec
open BoolParser

/-- Kinds of values a user tells apart. -/
inductive Sort' where
  | truth | number | day | moment
deriving DecidableEq, Repr

/-- The value is of the kind: a `Boolean`; a number object; a `LocalDate` or a text read as a day; a
`LocalDateTime` or a text read as a moment. -/
inductive OfSort : Value → Sort' → Prop
  | truth (b : Bool) : OfSort (.bool b) .truth
  | number {v : Value} {x : ℚ} : Num v x → OfSort v .number
  | day {v : Value} {d : Date} : DayOf v d → OfSort v .day
  | moment {v : Value} {t : DateTime} : MomentOf v t → OfSort v .moment

end BoolParser.Spec
