import Verif.Spec.Functions
import Verif.Spec.Kinds
/-!
# Which texts are dates and date-times

The texts the library reads as a day or as a moment, with the day or moment they are read as.
-/

namespace BoolParser.Spec
open BoolParser

/-- Two digits. -/
def TwoDigits (s : JStr) (n : ℕ) : Prop := s.length = 2 ∧ IsDigits s ∧ digitsValue s = n

/-- The year `ys` as written: four digits without a sign, or five to nineteen after a plus. -/
def YearWritten (t ys : JStr) : Prop :=
  IsDigits ys ∧ (t = ys ∧ ys.length = 4 ∨ t = '+' :: ys ∧ 5 ≤ ys.length ∧ ys.length ≤ 19)

/-- The text is a year, a month and a day of two digits each, joined by dashes. -/
def DayParts (s ys : JStr) (m d : ℕ) : Prop :=
  ∃ t ms ds, YearWritten t ys ∧ TwoDigits ms m ∧ TwoDigits ds d ∧ s = t ++ '-' :: (ms ++ '-' :: ds)

/-- The numbers of a year, a month and a day of some month. -/
def DayNumbers (y m d : ℕ) : Prop := 1 ≤ y ∧ y ≤ 999999999 ∧ 1 ≤ m ∧ m ≤ 12 ∧ 1 ≤ d ∧ d ≤ 31

/-- The text is read as the day `x`; a day after the end of its month is read as the last one of the month. -/
def ReadsDay (s : JStr) (x : Date) : Prop :=
  ∃ ys m d, DayParts s ys m d ∧ DayNumbers (digitsValue ys) m d ∧
    x = ⟨digitsValue ys, m, min d (IsDay.monthDays (digitsValue ys) m)⟩

/-- The text is read as the moment `t`: a day, a space, hours, minutes and seconds of two digits each, joined by
colons. 24:00:00 is the midnight after. -/
def ReadsMoment (s : JStr) (t : DateTime) : Prop :=
  ∃ a x hs ms ss h m sec, ReadsDay a x ∧ TwoDigits hs h ∧ TwoDigits ms m ∧ TwoDigits ss sec ∧
    s = a ++ ' ' :: (hs ++ ':' :: (ms ++ ':' :: ss)) ∧
    ((h ≤ 23 ∧ m ≤ 59 ∧ sec ≤ 59 ∧ t = ⟨x, h, m, sec, 0⟩) ∨
     (h = 24 ∧ m = 0 ∧ sec = 0 ∧ (dayAfter x).year ≤ 999999999 ∧ t = ⟨dayAfter x, 0, 0, 0, 0⟩))

/-- An ordinary text: neither a day nor a moment. -/
def Ordinary (s : JStr) : Prop := (∀ x, ¬ ReadsDay s x) ∧ ∀ t, ¬ ReadsMoment s t

/-- A `LocalDate` or a text read as a day. -/
inductive DayOf : Value → Date → Prop
  | obj (x : Date) : DayOf (.date x) x
  | text {s : JStr} {x : Date} : ReadsDay s x → DayOf (.str s) x

/-- A `LocalDateTime` or a text read as a moment. -/
inductive MomentOf : Value → DateTime → Prop
  | obj (t : DateTime) : MomentOf (.datetime t) t
  | text {s : JStr} {t : DateTime} : ReadsMoment s t → MomentOf (.str s) t

/-- A text, a day or a moment with its printed form. -/
inductive TextOf : Value → JStr → Prop
  | text (s : JStr) : TextOf (.str s) s
  | day (x : Date) : TextOf (.date x) (dateStr x)
  | moment (t : DateTime) : TextOf (.datetime t) (dateTimeStr t)

end BoolParser.Spec
