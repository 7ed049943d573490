/-!
# Base layer: texts, failures, machine integers, decimal digits

Models the parts of the Java platform the library leans on everywhere.
-/

namespace BoolParser

/-- A Java `String`, as the list of its Unicode scalar values.
Simplification: strings with unpaired surrogates are not represented. -/
abbrev JStr := List Char

open Lean in
/-- `j!"abc"` is the list literal `['a', 'b', 'c']` (kernel-friendly string literal). -/
macro:max "j!" s:str : term => do
  let cs := (s.getString.toList.map (fun c => Syntax.mkCharLit c)).toArray
  `(([$cs,*] : List Char))

/-- The class of the cause inside a vavr `Failure`.
The first group models /repo/src/main/java/com/github/sidhant92/boolparser/exception/*.java, the
second the JDK exceptions that the modelled code can raise. Messages are not modelled. -/
inductive Exn where
  | invalidExpression | invalidDataType | dataNotFound | invalidContainerType
  | heterogeneousArray | invalidUnaryOperand | unsupportedToken | invalidFunctionArgument
  | nullPointer | classCast | arithmetic | numberFormat | noSuchElement | emptyStack
  | indexOutOfBounds
deriving DecidableEq, Repr

/-- Outcome of a computation run inside vavr `Try.of` / `Try.map`
(`parser/antlr/BoolParser.java:22-43`, `application/BooleanExpressionEvaluator.java:48-51`):
`ok` = `Success`, `error` = `Failure` with a cause of the given class. -/
abbrev Result (α : Type) := Except Exn α

instance {α : Type} [DecidableEq α] : DecidableEq (Result α)
  | .ok a, .ok b => if h : a = b then isTrue (by rw [h]) else isFalse (by intro e; cases e; exact h rfl)
  | .error a, .error b =>
      if h : a = b then isTrue (by rw [h]) else isFalse (by intro e; cases e; exact h rfl)
  | .ok _, .error _ => isFalse (by intro e; cases e)
  | .error _, .ok _ => isFalse (by intro e; cases e)

/-- Java narrowing to `int` (two's complement, JLS 5.1.3). -/
def wrap32 (n : Int) : Int := (n + 2147483648) % 4294967296 - 2147483648

/-- Java narrowing to `long` (two's complement, JLS 5.1.3). -/
def wrap64 (n : Int) : Int := (n + 9223372036854775808) % 18446744073709551616 - 9223372036854775808

/-- The mathematical integer fits a Java `int`. -/
def InInt32 (n : Int) : Prop := -2147483648 ≤ n ∧ n ≤ 2147483647

/-- The mathematical integer fits a Java `long`. -/
def InInt64 (n : Int) : Prop := -9223372036854775808 ≤ n ∧ n ≤ 9223372036854775807

instance (n : Int) : Decidable (InInt32 n) := inferInstanceAs (Decidable (_ ∧ _))
instance (n : Int) : Decidable (InInt64 n) := inferInstanceAs (Decidable (_ ∧ _))

/-- ASCII decimal digit: the grammar's `[0-9]` and the digits the date and time formatters read. Where the
libraries use `Character.isDigit`/`Character.digit`, which also take the digits of other scripts, the text
goes through `asciiDigits` first. -/
def isDigit (c : Char) : Bool := decide (48 ≤ c.toNat) && decide (c.toNat ≤ 57)

/-- Value of an ASCII digit. (Irreducible only to keep the elaborator from unfolding it in unary.) -/
@[irreducible] def digitVal (c : Char) : Nat := c.toNat - 48

/-- The digit character of `d < 10`. -/
def digitChar (d : Nat) : Char := Char.ofNat (48 + d)

/-- Value of a digit sequence, most significant first, continuing from `acc`. -/
def natOfDigits (acc : Nat) : JStr → Nat
  | [] => acc
  | c :: cs => natOfDigits (acc * 10 + digitVal c) cs

/-- Worker of `natStr`; the first argument is fuel (always started above the number of digits). -/
def natStrGo : Nat → Nat → JStr → JStr
  | 0, _, acc => acc
  | f + 1, n, acc =>
    if n < 10 then digitChar n :: acc else natStrGo f (n / 10) (digitChar (n % 10) :: acc)

/-- Decimal text of a natural number without leading zeros (`Long.toString`, `BigInteger.toString`). -/
def natStr (n : Nat) : JStr := natStrGo (n + 1) n []

/-- Decimal text of an integer (`Integer.toString`, `Long.toString`). -/
def intStr (n : Int) : JStr := if n < 0 then '-' :: natStr n.natAbs else natStr n.natAbs

/-- Code points of the digit zero of the scripts in the basic multilingual plane (general category `Nd`,
Unicode 7 and later); the other nine digits follow each. Java looks at one UTF-16 unit at a time, so digits
beyond that plane are not digits to it. -/
def digitZeros : List Nat :=
  [0x0660, 0x06F0, 0x07C0, 0x0966, 0x09E6, 0x0A66, 0x0AE6, 0x0B66, 0x0BE6, 0x0C66, 0x0CE6, 0x0D66, 0x0DE6,
   0x0E50, 0x0ED0, 0x0F20, 0x1040, 0x1090, 0x17E0, 0x1810, 0x1946, 0x19D0, 0x1A80, 0x1A90, 0x1B50, 0x1BB0,
   0x1C40, 0x1C50, 0xA620, 0xA8D0, 0xA900, 0xA9D0, 0xA9F0, 0xAA50, 0xABF0, 0xFF10]

/-- A decimal digit of any script as the ASCII digit of the same value (`Character.digit(c, 10)`); any other
character as it is. -/
def asciiDigit (c : Char) : Char :=
  if c.toNat < 0x0660 then c
  else match digitZeros.find? (fun z => decide (z ≤ c.toNat) && decide (c.toNat < z + 10)) with
    | some z => digitChar (c.toNat - z)
    | none => c

/-- The text as the libraries read its digits. -/
def asciiDigits (s : JStr) : JStr := s.map asciiDigit

/-- Digits with an optional sign, as accepted by `Integer.parseInt` / `Long.parseLong` before the
range check (JDK `Integer.parseInt(String)`). -/
def parseSigned : JStr → Option Int
  | '-' :: cs => if cs ≠ [] ∧ cs.all isDigit then some (-(natOfDigits 0 cs : Int)) else none
  | '+' :: cs => if cs ≠ [] ∧ cs.all isDigit then some (natOfDigits 0 cs : Int) else none
  | cs => if cs ≠ [] ∧ cs.all isDigit then some (natOfDigits 0 cs : Int) else none

/-- `Integer.parseInt(s)`; `none` = `NumberFormatException`. -/
def parseInt32 (s : JStr) : Option Int :=
  match parseSigned s with
  | some n => if InInt32 n then some n else none
  | none => none

/-- `Long.parseLong(s)`; `none` = `NumberFormatException`. -/
def parseInt64 (s : JStr) : Option Int :=
  match parseSigned s with
  | some n => if InInt64 n then some n else none
  | none => none

/-- ASCII lower-casing of one character (`String.toLowerCase` restricted to ASCII letters; the
modelled code only compares the result with ASCII words). -/
def lowerChar (c : Char) : Char :=
  if 65 ≤ c.toNat ∧ c.toNat ≤ 90 then Char.ofNat (c.toNat + 32) else c

/-- ASCII upper-casing of one character. -/
def upperChar (c : Char) : Char :=
  if 97 ≤ c.toNat ∧ c.toNat ≤ 122 then Char.ofNat (c.toNat - 32) else c

/-- `String.toLowerCase` (ASCII part). -/
def lower (s : JStr) : JStr := s.map lowerChar

/-- `String.toUpperCase` (ASCII part). -/
def upper (s : JStr) : JStr := s.map upperChar

/-- UTF-16 code units of one scalar value. -/
def utf16Char (c : Char) : List Nat :=
  if c.toNat < 65536 then [c.toNat]
  else [55296 + (c.toNat - 65536) / 1024, 56320 + (c.toNat - 65536) % 1024]

/-- UTF-16 code units of a string (what `String.length` and `String.compareTo` see). -/
def utf16 (s : JStr) : List Nat := s.flatMap utf16Char

/-- Lexicographic comparison of code-unit sequences (`String.compareTo`, sign only). -/
def cmpNats : List Nat → List Nat → Ordering
  | [], [] => .eq
  | [], _ :: _ => .lt
  | _ :: _, [] => .gt
  | a :: as, b :: bs => if a < b then .lt else if b < a then .gt else cmpNats as bs

/-- `String.compareTo` (sign). -/
def cmpStr (a b : JStr) : Ordering := cmpNats (utf16 a) (utf16 b)

/-- `String.length()`. -/
def jlength (s : JStr) : Nat := (utf16 s).length

end BoolParser
