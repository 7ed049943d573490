import Verif.Spec.Lists
import Verif.Model.Api
/-!
# Values a Java program can hold
-/

namespace BoolParser.Spec
open BoolParser

/-- A date inside the range of `LocalDate`. -/
def DateInRange (d : Date) : Prop :=
  -999999999 ≤ d.year ∧ d.year ≤ 999999999 ∧ 1 ≤ d.month ∧ d.month ≤ 12 ∧ 1 ≤ d.day ∧ d.day ≤ 31

mutual
/-- Every `Integer` in the value fits 32 bits, every `Long` 64 bits, every date the range of `LocalDate`. -/
def InRange : Value → Prop
  | .int n => InInt32 n
  | .long n => InInt64 n
  | .date d => DateInRange d
  | .datetime t => DateInRange t.date
  | .list xs => AllInRange xs
  | .coll xs => AllInRange xs
  | .arr _ xs => AllInRange xs
  | .map es => EntriesInRange es
  | _ => True
def AllInRange : List Value → Prop
  | [] => True
  | v :: vs => InRange v ∧ AllInRange vs
def EntriesInRange : List (JStr × Value) → Prop
  | [] => True
  | (_, v) :: es => InRange v ∧ EntriesInRange es
end

/-- Not more than `Integer.MAX_VALUE` elements or characters, the limit of Java collections and strings. -/
def CountFits (vs : List Value) : Prop :=
  (vs.flatMap elements).length ≤ 2147483647 ∧ ∀ s, vs.flatMap elements = [.str s] → jlength s ≤ 2147483647

/-- `LenCall env d n vs`: evaluating `n` applies LEN to `vs`. -/
inductive LenCall (env : Env) (d : Data) : Node → List Value → Prop
  | here {items : List Node} {vs : List Value} : evalArithAll env d items = .ok vs → LenCall env d (.func .len items) vs
  | arg {f : FuncType} {items : List Node} {n : Node} {vs : List Value} : n ∈ items → LenCall env d n vs →
      LenCall env d (.func f items) vs
  | left {o : ArithOp} {l r : Node} {vs : List Value} : LenCall env d l vs → LenCall env d (.arith o l r) vs
  | right {o : ArithOp} {l r : Node} {vs : List Value} : LenCall env d r vs → LenCall env d (.arith o l r) vs
  | neg {n : Node} {vs : List Value} : LenCall env d n vs → LenCall env d (.neg n) vs

/-- Whatever LEN counts in the node has a size Java can hold. -/
def LensFit (env : Env) (d : Data) (n : Node) : Prop := ∀ vs, LenCall env d n vs → CountFits vs

mutual
/-- Literals are in range and functions satisfy `Q`. -/
def NodeOk (Q : FuncType → Prop) : Node → Prop
  | .cmp l r _ _ => NodeOk Q l ∧ NodeOk Q r
  | .range _ lo hi _ _ => InRange lo ∧ InRange hi
  | .inn _ items => NodesOk Q items
  | .array _ _ items => NodesOk Q items
  | .unary _ v => InRange v
  | .and_ l r => NodeOk Q l ∧ NodeOk Q r
  | .or_ l r => NodeOk Q l ∧ NodeOk Q r
  | .not_ l => NodeOk Q l
  | .field _ => True
  | .arith _ l r => NodeOk Q l ∧ NodeOk Q r
  | .neg l => NodeOk Q l
  | .func f items => Q f ∧ NodesOk Q items
def NodesOk (Q : FuncType → Prop) : List Node → Prop
  | [] => True
  | n :: ns => NodeOk Q n ∧ NodesOk Q ns
end

end BoolParser.Spec
