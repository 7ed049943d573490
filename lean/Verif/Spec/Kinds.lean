import Mathlib.Data.List.Lex
import Mathlib.Data.Prod.Lex
import Verif.Spec.Numbers
/-!
# Texts, dates and versions

What the other kinds of data denote, and how they are ordered.
-/

namespace BoolParser.Spec
open BoolParser

/-- The text begins like a date: three dash-separated groups of digits, possibly with a plus sign in
front. -/
def DateLike (s : JStr) : Prop :=
  ∃ y m d r : JStr, IsDigits y ∧ IsDigits m ∧ IsDigits d ∧
    (s = y ++ '-' :: (m ++ '-' :: (d ++ r)) ∨ s = '+' :: (y ++ '-' :: (m ++ '-' :: (d ++ r))))

/-- Year, month and day, to be compared in this order. -/
def dateKey (d : Date) : ℤ ×ₗ (ℕ ×ₗ ℕ) := toLex (d.year, toLex (d.month, d.day))

/-- Date, hour, minute, second and nanosecond, to be compared in this order. -/
def dateTimeKey (t : DateTime) : (ℤ ×ₗ (ℕ ×ₗ ℕ)) ×ₗ (ℕ ×ₗ (ℕ ×ₗ (ℕ ×ₗ ℕ))) :=
  toLex (dateKey t.date, toLex (t.hour, toLex (t.minute, toLex (t.second, t.nano))))

/-- A `LocalDate`, or a text in the form `yyyy-MM-dd`. -/
inductive DateOf : Value → Date → Prop
  | obj (d : Date) : DateOf (.date d) d
  | text {d : Date} : RealDate d → DateOf (.str (dateText d)) d

/-- A time of day in whole seconds. -/
def RealTime (t : DateTime) : Prop := t.hour ≤ 23 ∧ t.minute ≤ 59 ∧ t.second ≤ 59 ∧ t.nano = 0

/-- A `LocalDateTime`, or a text in the form `yyyy-MM-dd HH:mm:ss`. -/
inductive DateTimeOf : Value → DateTime → Prop
  | obj (t : DateTime) : DateTimeOf (.datetime t) t
  | text {t : DateTime} : RealDate t.date → RealTime t → DateTimeOf (.str (dateTimeText t)) t

/-- Component `i` of a version; missing components are 0. -/
def component (v : List ℕ) (i : ℕ) : ℕ := v.getD i 0

/-- `v` is an earlier version than `w`: they agree up to some component, where `v` has the smaller
number. -/
def Earlier (v w : List ℕ) : Prop :=
  ∃ i, (∀ j < i, component v j = component w j) ∧ component v i < component w i

/-- The same version up to missing zeros. -/
def SameVersion (v w : List ℕ) : Prop := ∀ i, component v i = component w i

/-- What a comparison operator means for versions. -/
def VersionRel : CmpOp → List ℕ → List ℕ → Prop
  | .eq, v, w => SameVersion v w
  | .ne, v, w => ¬ SameVersion v w
  | .lt, v, w => Earlier v w
  | .le, v, w => Earlier v w ∨ SameVersion v w
  | .gt, v, w => Earlier w v
  | .ge, v, w => Earlier w v ∨ SameVersion v w

/-- The text of dotted decimal numbers; leading zeros allowed. -/
def VersionText (s : JStr) (v : List ℕ) : Prop :=
  ∃ p ps, IsDigits p ∧ (∀ q ∈ ps, IsDigits q) ∧ s = p ++ dots ps ∧ v = digitsValue p :: ps.map digitsValue

end BoolParser.Spec
