import Verif.Model.BigDecimal
/-!
# `double`, as far as `ValueUtils.castDecimal(double)` needs it
-/

namespace BoolParser

/-- A Java `double`: NaN, an infinity, or the exact value `m * 2^e`. -/
inductive Dbl where
  | nan
  | inf (negative : Bool)
  | fin (m : Int) (e : Int)
deriving DecidableEq, Repr

/-- Number of binary digits minus one; fuel-driven. -/
def log2Go : Nat → Nat → Nat
  | 0, _ => 0
  | f + 1, n => if n < 2 then 0 else log2Go f (n / 2) + 1

/-- Floor of the binary logarithm of a number below `2^64`. -/
def log2n (n : Nat) : Nat := log2Go 64 n

/-- Magnitude of the `double` nearest to `n` (`n < 2^64`), ties to even: the widening conversion
`long → double` of JLS 5.1.2. -/
def roundMag (n : Nat) : Nat :=
  if n < 2 ^ 53 then n
  else
    let k := log2n n - 52
    let q := n / 2 ^ k
    let r := n % 2 ^ k
    let q' := if 2 * r < 2 ^ k then q
              else if 2 ^ k < 2 * r then q + 1
              else if q % 2 = 0 then q else q + 1
    q' * 2 ^ k

/-- `(double) n` for a `long` n; the result is an integer. -/
def longToDouble (n : Int) : Int := if n < 0 then -(roundMag n.natAbs : Int) else roundMag n.natAbs

/-- `new BigDecimal(double)` of a finite value: exact decimal expansion, scale 0 for whole numbers,
otherwise the least number of fractional digits (JDK constructor `BigDecimal(double)`). -/
def dblToDec (m e : Int) : Dec :=
  if 0 ≤ e then ⟨m * ((2 ^ e.toNat : Nat) : Int), 0⟩
  else
    let den : Nat := 2 ^ (-e).toNat
    let g : Nat := Nat.gcd m.natAbs den
    let den' : Nat := den / g
    let k := log2Go ((-e).toNat + 1) den'
    ⟨m / (g : Int) * ((5 ^ k : Nat) : Int), k⟩

end BoolParser
