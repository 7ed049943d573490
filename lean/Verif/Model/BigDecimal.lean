import Verif.Model.Base
/-!
# `java.math.BigDecimal`

A number `unscaled * 10^(-scale)`. Third-party (JDK) behaviour; used by
`operator/arithmetic/*`, `function/arithmetic/*`, `datatype/{Decimal,Integer,Long}DataType.java`.
Simplification: Java's scale is an `int`; arithmetic that would leave that range is not modelled
(parsing does check it).
-/

namespace BoolParser

/-- `BigDecimal` = (unscaledValue, scale). Two `BigDecimal`s are `equals` iff both parts agree. -/
structure Dec where
  unscaled : Int
  scale : Int
deriving DecidableEq, Repr

namespace Dec

/-- Power of ten. -/
def p10 (n : Nat) : Int := ((10 ^ n : Nat) : Int)

/-- Unscaled value of `d` rewritten at the larger scale `s`. -/
def rescaled (d : Dec) (s : Int) : Int := d.unscaled * p10 (s - d.scale).toNat

/-- `new BigDecimal(long)` / `BigDecimal(int)`: scale 0. -/
def ofInt (n : Int) : Dec := ⟨n, 0⟩

/-- `BigDecimal.add`: scale is the larger of the two. -/
def add (a b : Dec) : Dec :=
  let s := max a.scale b.scale
  ⟨a.rescaled s + b.rescaled s, s⟩

/-- `BigDecimal.subtract`. -/
def sub (a b : Dec) : Dec :=
  let s := max a.scale b.scale
  ⟨a.rescaled s - b.rescaled s, s⟩

/-- `BigDecimal.multiply`: scales add up. -/
def mul (a b : Dec) : Dec := ⟨a.unscaled * b.unscaled, a.scale + b.scale⟩

/-- `BigDecimal.negate`. -/
def neg (a : Dec) : Dec := ⟨-a.unscaled, a.scale⟩

/-- `BigDecimal.compareTo` (sign): by value, scale ignored. -/
def cmp (a b : Dec) : Ordering :=
  let s := max a.scale b.scale
  compare (a.rescaled s) (b.rescaled s)

/-- Numerator and denominator of `a / b * 10^sc`, as integers. -/
def quotParts (a b : Dec) (sc : Int) : Int × Int :=
  let e := sc + b.scale - a.scale
  if 0 ≤ e then (a.unscaled * p10 e.toNat, b.unscaled) else (a.unscaled, b.unscaled * p10 (-e).toNat)

/-- `a.divide(b, sc, RoundingMode.DOWN)` (`BigDecimal.ROUND_DOWN`): truncation towards zero at scale
`sc`; division by zero raises `ArithmeticException`. -/
def divDown (a b : Dec) (sc : Int) : Result Dec :=
  if b.unscaled = 0 then .error .arithmetic
  else
    let p := quotParts a b sc
    .ok ⟨p.1.tdiv p.2, sc⟩

/-- `a.divide(b, sc, RoundingMode.UNNECESSARY)`: like `divDown` but `ArithmeticException` when the
quotient is not exact at that scale. -/
def divExact (a b : Dec) (sc : Int) : Result Dec :=
  if b.unscaled = 0 then .error .arithmetic
  else
    let p := quotParts a b sc
    if p.1.tmod p.2 = 0 then .ok ⟨p.1.tdiv p.2, sc⟩ else .error .arithmetic

/-- The value has no fractional part. Models the tests
`signum() == 0 || scale() <= 0 || stripTrailingZeros().scale() <= 0` of `util/ValueUtils.java:104`
and “`stripTrailingZeros().toPlainString()` contains no point” of
`datatype/IntegerDataType.java:27,52`. -/
def isIntegral (d : Dec) : Bool :=
  decide (d.scale ≤ 0) || decide (d.unscaled.tmod (p10 d.scale.toNat) = 0)

/-- Integer part, towards zero (`BigDecimal.toBigInteger`). -/
def trunc (d : Dec) : Int :=
  if d.scale ≤ 0 then d.unscaled * p10 (-d.scale).toNat else d.unscaled.tdiv (p10 d.scale.toNat)

/-- `BigDecimal.intValue()`: low 32 bits of the integer part. -/
def intValue (d : Dec) : Int := wrap32 d.trunc

/-- The text `stripTrailingZeros().toPlainString()` parsed by `Integer.parseInt`
(`datatype/IntegerDataType.java:51-52`); simplification: the intermediate text is not built, a plain
integral text parses iff the value is in range. -/
def toInt32? (d : Dec) : Option Int :=
  if d.isIntegral then (if InInt32 d.trunc then some d.trunc else none) else none

/-- Same with `Long.parseLong` (`datatype/LongDataType.java:51-52`). -/
def toInt64? (d : Dec) : Option Int :=
  if d.isIntegral then (if InInt64 d.trunc then some d.trunc else none) else none

/-- `n` zeros. -/
def zeros (n : Nat) : JStr := List.replicate n '0'

/-- `BigDecimal.toString()` (JDK: canonical text, scientific notation when the scale is negative or
the adjusted exponent is below -6). -/
def toStr (d : Dec) : JStr :=
  let coeff := natStr d.unscaled.natAbs
  let sign : JStr := if d.unscaled < 0 then ['-'] else []
  if d.scale = 0 then sign ++ coeff
  else
    let adjusted : Int := -d.scale + ((coeff.length : Int) - 1)
    if 0 ≤ d.scale ∧ -6 ≤ adjusted then
      let sc := d.scale.toNat
      if coeff.length ≤ sc then
        sign ++ j!"0." ++ zeros (sc - coeff.length) ++ coeff
      else
        sign ++ coeff.take (coeff.length - sc) ++ ['.'] ++ coeff.drop (coeff.length - sc)
    else
      let mant : JStr := match coeff with
        | [] => []
        | [c] => [c]
        | c :: cs => c :: '.' :: cs
      if adjusted = 0 then sign ++ mant
      else sign ++ mant ++ ['E'] ++ (if 0 < adjusted then ['+'] else []) ++ intStr adjusted

/-- Drop leading zeros while more than ten digits remain (JDK `BigDecimal.parseExp`). -/
def dropExpZeros : JStr → JStr
  | '0' :: cs => if 10 < cs.length + 1 then dropExpZeros cs else '0' :: cs
  | cs => cs

/-- Exponent digits after the optional sign (JDK `BigDecimal.parseExp`). -/
def parseExpDigits (cs : JStr) : Option Int :=
  if cs ≠ [] ∧ cs.all isDigit then
    let ds := dropExpZeros cs
    if 10 < ds.length then none else some (natOfDigits 0 ds : Int)
  else none

/-- Exponent part after `e`/`E`. -/
def parseExp : JStr → Option Int
  | '-' :: cs => (parseExpDigits cs).map (fun n => -n)
  | '+' :: cs => parseExpDigits cs
  | cs => parseExpDigits cs

/-- Unsigned part of `new BigDecimal(String)`: digits, optional point and digits, optional exponent. -/
def parseUnsigned (neg : Bool) (s : JStr) : Option Dec :=
  let ds := s.takeWhile isDigit
  let r := s.dropWhile isDigit
  let (fs, r2) : JStr × JStr := match r with
    | '.' :: t => (t.takeWhile isDigit, t.dropWhile isDigit)
    | _ => ([], r)
  if ds ++ fs = [] then none
  else
    let m : Int := natOfDigits 0 (ds ++ fs)
    let u : Int := if neg then -m else m
    match r2 with
    | [] => some ⟨u, fs.length⟩
    | c :: t =>
      if c = 'e' ∨ c = 'E' then
        match parseExp t with
        | some e =>
          let sc : Int := fs.length - e
          if InInt32 e ∧ InInt32 sc then some ⟨u, sc⟩ else none
        | none => none
      else none

/-- `new BigDecimal(String)` of a text whose digits are ASCII digits. -/
def parseAscii : JStr → Option Dec
  | '-' :: cs => parseUnsigned true cs
  | '+' :: cs => parseUnsigned false cs
  | cs => parseUnsigned false cs

/-- `new BigDecimal(String)`; `none` = `NumberFormatException`. The constructor takes every character with
`Character.isDigit` and uses its `Character.digit`. -/
def parse (s : JStr) : Option Dec := parseAscii (asciiDigits s)

end Dec
end BoolParser
