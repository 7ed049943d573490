import Verif.Model.Base
/-!
# `java.time.LocalDate` / `LocalDateTime` and the formatters the library uses

Third-party (JDK) behaviour used by `util/ValueUtils.java:159-176`, `datatype/DateDataType.java`,
`datatype/DateTimeDataType.java`, `function/arithmetic/DaysElapsedFunction.java`.
-/

namespace BoolParser

/-- `LocalDate`. -/
structure Date where
  year : Int
  month : Nat
  day : Nat
deriving DecidableEq, Repr

/-- `LocalDateTime`. -/
structure DateTime where
  date : Date
  hour : Nat
  minute : Nat
  second : Nat
  nano : Nat
deriving DecidableEq, Repr

/-- `Year.isLeap` (ISO proleptic). -/
def isLeap (y : Int) : Bool := decide (y % 4 = 0) && (decide (y % 100 ≠ 0) || decide (y % 400 = 0))

/-- `Month.length(leap)`. -/
def monthLen (y : Int) (m : Nat) : Nat :=
  if m = 4 ∨ m = 6 ∨ m = 9 ∨ m = 11 then 30
  else if m = 2 then (if isLeap y then 29 else 28)
  else 31

/-- The day after (`LocalDate.plusDays(1)`). -/
def nextDay (d : Date) : Date :=
  if d.day < monthLen d.year d.month then ⟨d.year, d.month, d.day + 1⟩
  else if d.month < 12 then ⟨d.year, d.month + 1, 1⟩
  else ⟨d.year + 1, 1, 1⟩

/-- `LocalDate.compareTo` (sign): year, month, day. -/
def cmpDate (a b : Date) : Ordering :=
  (compare a.year b.year).then ((compare a.month b.month).then (compare a.day b.day))

/-- `LocalDateTime.compareTo` (sign): date, then time of day. -/
def cmpDateTime (a b : DateTime) : Ordering :=
  (cmpDate a.date b.date).then ((compare a.hour b.hour).then ((compare a.minute b.minute).then
    ((compare a.second b.second).then (compare a.nano b.nano))))

/-- `LocalDate.toEpochDay()` (JDK formula; Java's truncating division written with `Int.tdiv`). -/
def epochDay (d : Date) : Int :=
  let y := d.year
  let m : Int := d.month
  let leaps : Int :=
    if 0 ≤ y then (y + 3).tdiv 4 - (y + 99).tdiv 100 + (y + 399).tdiv 400
    else -(y.tdiv (-4) - y.tdiv (-100) + y.tdiv (-400))
  let t := 365 * y + leaps + (367 * m - 362).tdiv 12 + ((d.day : Int) - 1)
  let t := if 2 < d.month then (if isLeap y then t - 1 else t - 2) else t
  t - 719528

/-- `n` digits with leading zeros. -/
def padNat (w n : Nat) : JStr := List.replicate (w - (natStr n).length) '0' ++ natStr n

/-- `LocalDate.toString()`. -/
def dateStr (d : Date) : JStr :=
  let y : JStr :=
    if d.year < 0 then '-' :: padNat 4 d.year.natAbs
    else if 9999 < d.year then '+' :: natStr d.year.natAbs
    else padNat 4 d.year.natAbs
  y ++ ['-'] ++ padNat 2 d.month ++ ['-'] ++ padNat 2 d.day

/-- `LocalTime.toString()`: seconds and nanos only when needed, nanos in groups of three digits. -/
def timeStr (t : DateTime) : JStr :=
  padNat 2 t.hour ++ [':'] ++ padNat 2 t.minute ++
    (if 0 < t.second ∨ 0 < t.nano then
      [':'] ++ padNat 2 t.second ++
        (if 0 < t.nano then
          ['.'] ++ (if t.nano % 1000000 = 0 then padNat 3 (t.nano / 1000000)
                    else if t.nano % 1000 = 0 then padNat 6 (t.nano / 1000)
                    else padNat 9 t.nano)
        else [])
    else [])

/-- `LocalDateTime.toString()`. -/
def dateTimeStr (t : DateTime) : JStr := dateStr t.date ++ ['T'] ++ timeStr t

/-- A two-digit field (`MM`, `dd`, `HH`, `mm`, `ss`: fixed width 2, no sign). -/
def two : JStr → Option (Nat × JStr)
  | a :: b :: cs => if isDigit a && isDigit b then some (natOfDigits 0 [a, b], cs) else none
  | _ => none

/-- A literal character of the pattern. -/
def lit (c : Char) : JStr → Option JStr
  | d :: cs => if d = c then some cs else none
  | [] => none

/-- The `yyyy` field: year of era, at least 4 and at most 19 digits, `SignStyle.EXCEEDS_PAD` (five or
more digits need a `+`, four digits forbid it), value 1 to 999999999. A `-` never leads to a valid
year of era. -/
def parseYearOfEra (s : JStr) : Option (Nat × JStr) :=
  match s with
  | '-' :: _ => none
  | '+' :: cs =>
    let ds := (cs.takeWhile isDigit).take 19
    let y := natOfDigits 0 ds
    if 4 < ds.length ∧ 1 ≤ y ∧ y ≤ 999999999 then some (y, cs.drop ds.length) else none
  | cs =>
    let ds := (cs.takeWhile isDigit).take 19
    let y := natOfDigits 0 ds
    if ds.length = 4 ∧ 1 ≤ y ∧ y ≤ 999999999 then some (y, cs.drop ds.length) else none

/-- `SMART` resolution of year/month/day: month 1-12 and day 1-31 are required, a day beyond the end of
the month is moved back to its last day (JDK `IsoChronology.resolveYMD`). -/
def resolveSmart (y m d : Nat) : Option Date :=
  if 1 ≤ m ∧ m ≤ 12 ∧ 1 ≤ d ∧ d ≤ 31 then some ⟨y, m, min d (monthLen y m)⟩ else none

/-- The `yyyy-MM-dd` prefix of a text. -/
def parseDatePart (s : JStr) : Option (Date × JStr) := do
  let (y, s) ← parseYearOfEra s
  let s ← lit '-' s
  let (m, s) ← two s
  let s ← lit '-' s
  let (d, s) ← two s
  let r ← resolveSmart y m d
  pure (r, s)

/-- `LocalDate.parse(s, ofPattern("yyyy-MM-dd"))` (`util/ValueUtils.java:162-168`,
`datatype/DateDataType.java:51-57`); `none` = `DateTimeParseException`. -/
def parseDate (s : JStr) : Option Date :=
  match parseDatePart s with
  | some (d, []) => some d
  | _ => none

/-- `LocalDateTime.parse(s, ofPattern("yyyy-MM-dd HH:mm:ss"))` (`util/ValueUtils.java:170-176`,
`datatype/DateTimeDataType.java:51-57`). `24:00:00` is accepted and means midnight of the next day
(`SMART` resolution, JDK `Parsed.resolveTime`). -/
def parseDateTime (s : JStr) : Option DateTime := do
  let (d, s) ← parseDatePart s
  let s ← lit ' ' s
  let (h, s) ← two s
  let s ← lit ':' s
  let (m, s) ← two s
  let s ← lit ':' s
  let (sec, s) ← two s
  if s ≠ [] then none
  else if h = 24 ∧ m = 0 ∧ sec = 0 then
    (if (nextDay d).year ≤ 999999999 then some ⟨nextDay d, 0, 0, 0, 0⟩ else none)
  else if h ≤ 23 ∧ m ≤ 59 ∧ sec ≤ 59 then some ⟨d, h, m, sec, 0⟩
  else none

/-- The ISO year field: 4 to 10 digits, `EXCEEDS_PAD`, sign allowed, `-0000` rejected. -/
def parseIsoYear (s : JStr) : Option (Int × JStr) :=
  match s with
  | '-' :: cs =>
    let ds := (cs.takeWhile isDigit).take 10
    let y := natOfDigits 0 ds
    if 4 ≤ ds.length ∧ 1 ≤ y ∧ y ≤ 999999999 then some (-(y : Int), cs.drop ds.length) else none
  | '+' :: cs =>
    let ds := (cs.takeWhile isDigit).take 10
    let y := natOfDigits 0 ds
    if 4 < ds.length ∧ y ≤ 999999999 then some (y, cs.drop ds.length) else none
  | cs =>
    let ds := (cs.takeWhile isDigit).take 10
    let y := natOfDigits 0 ds
    if ds.length = 4 then some (y, cs.drop ds.length) else none

/-- `LocalDate.parse(s)` = `ISO_LOCAL_DATE`, `STRICT` resolution
(`function/arithmetic/DaysElapsedFunction.java:37`). -/
def parseIsoDate (s : JStr) : Option Date := do
  let (y, s) ← parseIsoYear s
  let s ← lit '-' s
  let (m, s) ← two s
  let s ← lit '-' s
  let (d, s) ← two s
  if s = [] ∧ 1 ≤ m ∧ m ≤ 12 ∧ 1 ≤ d ∧ d ≤ monthLen y m then some ⟨y, m, d⟩ else none

end BoolParser
