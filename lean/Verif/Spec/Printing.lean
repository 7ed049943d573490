import Verif.Spec.Kinds
/-!
# Printed forms

How Java prints the objects a data map can hold: the texts a user has to write to hit them with `=`, CONTAINS_ALL,
CONTAINS_ANY, or to predict a concatenation. Stated as relations, apart from the printing functions of the model.
-/

namespace BoolParser.Spec
open BoolParser

/-- The digits of `n` without leading zeros. -/
def PlainDigits (n : ℕ) (ds : JStr) : Prop :=
  IsDigits ds ∧ (ds = ['0'] ∨ ds.head? ≠ some '0') ∧ digitsValue ds = n

/-- `n` in exactly `w` digits. -/
def FixedDigits (w n : ℕ) (ds : JStr) : Prop := ds.all isDigit = true ∧ ds.length = w ∧ digitsValue ds = n

/-- A minus sign for a negative number. -/
def minus (n : ℤ) : JStr := if n < 0 then ['-'] else []

/-- Texts of `Integer` and `Long`. -/
def WholeText (n : ℤ) (t : JStr) : Prop := ∃ ds, PlainDigits n.natAbs ds ∧ t = minus n ++ ds

/-- Texts of a `BigDecimal` `unscaled · 10^-scale`. With `ds` the digits of the unscaled number, its first digit has
the weight `10^(ds.length - 1 - scale)`. -/
inductive BigText (d : Dec) : JStr → Prop
  | whole {ds : JStr} : d.scale = 0 → PlainDigits d.unscaled.natAbs ds → BigText d (minus d.unscaled ++ ds)
  | point {ds a b : JStr} : 0 < d.scale → PlainDigits d.unscaled.natAbs ds →
      -6 ≤ (ds.length : ℤ) - 1 - d.scale →
      IsDigits a → (a = ['0'] ∨ a.head? ≠ some '0') → b.all isDigit = true → (b.length : ℤ) = d.scale →
      digitsValue (a ++ b) = d.unscaled.natAbs → BigText d (minus d.unscaled ++ a ++ '.' :: b)
  | scientific {c : Char} {cs es : JStr} {e : ℤ} : PlainDigits d.unscaled.natAbs (c :: cs) →
      e = (cs.length : ℤ) - d.scale → d.scale < 0 ∨ (0 < d.scale ∧ e < -6) → PlainDigits e.natAbs es →
      BigText d (minus d.unscaled ++ c :: (if cs = [] then [] else '.' :: cs) ++
        'E' :: (if e < 0 then '-' else '+') :: es)

/-- The year of a date: four digits, more if needed; a sign before the year 0 and after the year 9999. -/
inductive YearText (y : ℤ) : JStr → Prop
  | common {ds : JStr} : 0 ≤ y → y ≤ 9999 → FixedDigits 4 y.natAbs ds → YearText y ds
  | ancient {ds : JStr} : y < 0 → -9999 ≤ y → FixedDigits 4 y.natAbs ds → YearText y ('-' :: ds)
  | remote {ds : JStr} : 9999 < y.natAbs → PlainDigits y.natAbs ds →
      YearText y ((if y < 0 then '-' else '+') :: ds)

/-- ISO texts of a `LocalDate`. -/
def IsoDate (d : Date) (t : JStr) : Prop :=
  ∃ y m n, YearText d.year y ∧ FixedDigits 2 d.month m ∧ FixedDigits 2 d.day n ∧ t = y ++ '-' :: (m ++ '-' :: n)

/-- The seconds of a time: left out if there are none; a fraction of three, six or nine digits, as few as possible. -/
inductive SecondsText (t : DateTime) : JStr → Prop
  | none : t.second = 0 → t.nano = 0 → SecondsText t []
  | whole {s : JStr} : t.second ≠ 0 → t.nano = 0 → FixedDigits 2 t.second s → SecondsText t (':' :: s)
  | fraction {s f : JStr} {w : ℕ} : t.nano ≠ 0 → FixedDigits 2 t.second s → w ∈ [3, 6, 9] →
      f.all isDigit = true → f.length = w → digitsValue f * 10 ^ (9 - w) = t.nano →
      (∀ k ∈ [3, 6, 9], k < w → ¬ 10 ^ (9 - k) ∣ t.nano) → SecondsText t (':' :: (s ++ '.' :: f))

/-- ISO texts of a time of day. -/
def IsoTime (t : DateTime) (s : JStr) : Prop :=
  ∃ h m r, FixedDigits 2 t.hour h ∧ FixedDigits 2 t.minute m ∧ SecondsText t r ∧ s = h ++ ':' :: (m ++ r)

mutual
/-- The printed form of an object (`toString()`). -/
inductive PrintedAs : Value → JStr → Prop
  | null : PrintedAs .null j!"null"
  | yes : PrintedAs (.bool true) j!"true"
  | no : PrintedAs (.bool false) j!"false"
  | int {n : ℤ} {t : JStr} : WholeText n t → PrintedAs (.int n) t
  | long {n : ℤ} {t : JStr} : WholeText n t → PrintedAs (.long n) t
  | big {d : Dec} {t : JStr} : BigText d t → PrintedAs (.dec d) t
  | double (t : JStr) : PrintedAs (.dbl t) t
  | float (t : JStr) : PrintedAs (.flt t) t
  | text (t : JStr) : PrintedAs (.str t) t
  | version (t : JStr) : PrintedAs (.ver t) t
  | other (t : JStr) : PrintedAs (.other t) t
  | array (t : JStr) (xs : List Value) : PrintedAs (.arr t xs) t
  | date {d : Date} {t : JStr} : IsoDate d t → PrintedAs (.date d) t
  | datetime {x : DateTime} {a b : JStr} : IsoDate x.date a → IsoTime x b → PrintedAs (.datetime x) (a ++ 'T' :: b)
  | list {xs : List Value} {ts : List JStr} : PrintedAll xs ts → PrintedAs (.list xs) ('[' :: (j!", ".intercalate ts ++ [']']))
  | coll {xs : List Value} {ts : List JStr} : PrintedAll xs ts → PrintedAs (.coll xs) ('[' :: (j!", ".intercalate ts ++ [']']))
  | map {es : List (JStr × Value)} {ts : List JStr} : PrintedEach es ts →
      PrintedAs (.map es) ('{' :: (j!", ".intercalate ts ++ ['}']))
/-- The printed forms of elements. -/
inductive PrintedAll : List Value → List JStr → Prop
  | nil : PrintedAll [] []
  | cons {x : Value} {t : JStr} {xs : List Value} {ts : List JStr} : PrintedAs x t → PrintedAll xs ts →
      PrintedAll (x :: xs) (t :: ts)
/-- The printed forms of the entries of a map: key, equals sign, value. -/
inductive PrintedEach : List (JStr × Value) → List JStr → Prop
  | nil : PrintedEach [] []
  | cons {k : JStr} {x : Value} {t : JStr} {es : List (JStr × Value)} {ts : List JStr} : PrintedAs x t →
      PrintedEach es ts → PrintedEach ((k, x) :: es) ((k ++ '=' :: t) :: ts)
end

/-- A date and a time of day as they exist. -/
def DateExists (d : Date) : Prop := d.month ≤ 12 ∧ d.day ≤ 31
def TimeExists (t : DateTime) : Prop := t.hour ≤ 23 ∧ t.minute ≤ 59 ∧ t.second ≤ 59 ∧ t.nano ≤ 999999999

mutual
/-- The dates and times in the value are dates and times a Java program can hold. -/
def RealDates : Value → Prop
  | .date d => DateExists d
  | .datetime t => DateExists t.date ∧ TimeExists t
  | .list xs => AllRealDates xs
  | .coll xs => AllRealDates xs
  | .map es => EachRealDates es
  | _ => True
def AllRealDates : List Value → Prop
  | [] => True
  | x :: xs => RealDates x ∧ AllRealDates xs
def EachRealDates : List (JStr × Value) → Prop
  | [] => True
  | (_, x) :: es => RealDates x ∧ EachRealDates es
end

end BoolParser.Spec
