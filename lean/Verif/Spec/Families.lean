import Verif.Spec.Paths
/-!
# Families of types

The types a user may replace by their own fall into four families; a condition involves some of them.
-/

namespace BoolParser.Spec
open BoolParser

/-- Numbers; texts, dates and date-times; truth values; versions. -/
inductive Family where
  | number
  | text
  | truth
  | version
deriving DecidableEq

/-- The family of a type. -/
def familyOf : DataType → Family
  | .integer => .number
  | .long => .number
  | .decimal => .number
  | .string => .text
  | .date => .text
  | .datetime => .text
  | .boolean => .truth
  | .version => .version

/-- The family of a value of the data; everything the library does not know is treated as text. -/
def valueFamily : Value → Family
  | .int _ => .number
  | .long _ => .number
  | .dec _ => .number
  | .dbl _ => .number
  | .flt _ => .number
  | .bool _ => .truth
  | .ver _ => .version
  | _ => .text

/-- The elements of a list. -/
def elementsOf : Value → List Value
  | .list xs => xs
  | .coll xs => xs
  | .arr _ xs => xs
  | _ => []

/-- The value and, if it is a list, its elements are of the families `F`. -/
def AmongFamilies (F : Family → Prop) (v : Value) : Prop :=
  F (valueFamily v) ∧ ∀ w ∈ elementsOf v, F (valueFamily w)

/-- The family of a literal. -/
def Lit.family : Lit → Family
  | .int _ => .number
  | .dec _ _ => .number
  | .ver _ _ _ _ => .version
  | .bool _ => .truth
  | .str _ _ => .text
  | .date _ => .text
  | .datetime _ => .text

mutual
/-- The families an arithmetic expression brings with it: those of its literals, and numbers as soon as something is
computed. -/
def Arith.Involves (φ : Family) : Arith → Prop
  | .field _ => False
  | .lit l => φ = l.family
  | .group e => e.Involves φ
  | .op _ l r => φ = .number ∨ l.Involves φ ∨ r.Involves φ
  | .neg e => φ = .number ∨ e.Involves φ
  | .call _ args => φ = .number ∨ Arith.AllInvolve φ args
def Arith.AllInvolve (φ : Family) : List Arith → Prop
  | [] => False
  | e :: es => e.Involves φ ∨ Arith.AllInvolve φ es
end

/-- The families a condition brings with it; a null check compares with the text `null`. -/
def Cond.Involves (φ : Family) : Cond → Prop
  | .cmp _ l r => l.Involves φ ∨ r.Involves φ
  | .cmpD _ r => r.Involves φ
  | .isNull _ _ => φ = .text
  | .range _ lo hi => φ = lo.family ∨ φ = hi.family
  | .isIn _ _ items => Arith.AllInvolve φ items
  | .contains _ _ items => Arith.AllInvolve φ items
  | .notField _ => False
  | .not c => c.Involves φ
  | .group c => c.Involves φ
  | .conn _ l r => l.Involves φ ∨ r.Involves φ

mutual
/-- A `+` occurs in the expression. -/
def Arith.Adds : Arith → Prop
  | .field _ => False
  | .lit _ => False
  | .group e => e.Adds
  | .op o l r => o = .add ∨ l.Adds ∨ r.Adds
  | .neg e => e.Adds
  | .call _ args => Arith.AnyAdds args
def Arith.AnyAdds : List Arith → Prop
  | [] => False
  | e :: es => e.Adds ∨ Arith.AnyAdds es
end

/-- A `+` occurs in the condition. -/
def Cond.Adds : Cond → Prop
  | .cmp _ l r => l.Adds ∨ r.Adds
  | .cmpD _ r => r.Adds
  | .isNull _ _ => False
  | .range _ _ _ => False
  | .isIn _ _ items => Arith.AnyAdds items
  | .contains _ _ items => Arith.AnyAdds items
  | .notField _ => False
  | .not c => c.Adds
  | .group c => c.Adds
  | .conn _ l r => l.Adds ∨ r.Adds

/-- Adding stays within the families: `+` makes a text of anything but two numbers, so unless everything is a number,
texts are among them. -/
def Closed (F : Family → Prop) : Prop := (∀ φ, F φ → φ = .number) ∨ F .text

/-- The type of a whole number or `BigDecimal`. -/
def numberType : Value → Option DataType
  | .int _ => some .integer
  | .long _ => some .long
  | .dec _ => some .decimal
  | _ => none

/-- The type an arithmetic operator calculates with: `/` always with decimals; `-` with the widest type of its
operands; `%` with integers or longs; `+`, `*` and `^` with decimals or longs, never with integers. -/
def worksIn (o : ArithOp) (s t : DataType) : DataType :=
  match o with
  | .div => .decimal
  | .sub => if s = .decimal ∨ t = .decimal then .decimal else if s = .long ∨ t = .long then .long else .integer
  | .mod => if s = .long ∨ t = .long then .long else .integer
  | _ => if s = .decimal ∨ t = .decimal then .decimal else .long

/-- The operator computes with values of these types: `%` only with whole numbers. -/
def Computable (o : ArithOp) (s t : DataType) : Prop := o = .mod → s ≠ .decimal ∧ t ≠ .decimal

/-- The type a function calculates with, if any: MEDIAN always with decimals; MIN and MAX with the widest type of their
arguments; SUM, AVG and MEAN with decimals or longs. -/
def functionWorksIn (f : FuncType) (ts : List DataType) : Option DataType :=
  match f with
  | .median => some .decimal
  | .min => some (if .decimal ∈ ts then .decimal else if .long ∈ ts then .long else .integer)
  | .max => some (if .decimal ∈ ts then .decimal else if .long ∈ ts then .long else .integer)
  | .sum => some (if .decimal ∈ ts then .decimal else .long)
  | .avg => some (if .decimal ∈ ts then .decimal else .long)
  | .mean => some (if .decimal ∈ ts then .decimal else .long)
  | _ => none

end BoolParser.Spec
