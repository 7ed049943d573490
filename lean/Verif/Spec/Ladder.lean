import Verif.Spec.Fragment
/-!
# Operator trees and the parentheses they need

Binding strengths, strongest first: NOT 15, comparison 14, unary minus 13, `^` 12, `/` 11, `*` 10, `%` 9,
`+` 8, `-` 7, AND and OR 5.
-/

namespace BoolParser.Spec
open BoolParser

/-- Expressions of the grammar as operator trees, without parentheses. -/
inductive Expr where
  | field (f : JStr)
  | lit (l : Lit)
  | cmp (o : CmpOp) (l r : Expr)
  | neg (e : Expr)
  | arith (o : ArithOp) (l r : Expr)
  | conn (conj : Bool) (l r : Expr)
  | not (e : Expr)
  | call (f : FuncType) (args : List Expr)
  | range (f : JStr) (lo hi : Lit)
  | isIn (f : JStr) (negated : Bool) (items : List Expr)
  | contains (f : JStr) (o : ArrOp) (items : List Expr)

namespace Expr

mutual
/-- Names are names, literals are literals, range bounds are numbers, lists are not empty. -/
def Valid : Expr → Prop
  | .field f => IsName f
  | .lit l => l.Valid
  | .cmp _ l r => l.Valid ∧ r.Valid
  | .neg e => e.Valid
  | .arith _ l r => l.Valid ∧ r.Valid
  | .conn _ l r => l.Valid ∧ r.Valid
  | .not e => e.Valid
  | .call _ args => args ≠ [] ∧ AllValid args
  | .range f lo hi => IsName f ∧ (lo.Valid ∧ lo.isNumber = true) ∧ (hi.Valid ∧ hi.isNumber = true)
  | .isIn f _ items => IsName f ∧ items ≠ [] ∧ AllValid items
  | .contains f _ items => IsName f ∧ items ≠ [] ∧ AllValid items
def AllValid : List Expr → Prop
  | [] => True
  | e :: es => e.Valid ∧ AllValid es
end

/-- Binding strength of the outermost operator. -/
def level : Expr → Nat
  | .conn _ _ _ => 5
  | .arith o _ _ => strength o
  | .neg _ => 13
  | .cmp _ _ _ => 14
  | .not _ => 15
  | _ => 16

/-- Parentheses, if required. -/
def wrap (b : Bool) (ls : List JStr) : List JStr := if b then j!"(" :: (ls ++ [j!")"]) else ls

mutual
/-- Print with only the parentheses the binding strengths require: a left operand that binds more weakly than
its operator, a right operand that does not bind more strongly, and the operand of a prefix operator that
binds more weakly than it. -/
def print : Expr → List JStr
  | .field f => [f]
  | .lit l => [l.text]
  | .cmp o l r => wrap (l.level < 14) l.print ++ cmpText o :: wrap (r.level < 15) r.print
  | .neg e => j!"-" :: wrap (e.level < 13) e.print
  | .arith o l r => wrap (l.level < strength o) l.print ++ arithText o :: wrap (r.level < strength o + 1) r.print
  | .conn b l r => wrap (l.level < 5) l.print ++ connText b :: wrap (r.level < 6) r.print
  | .not e => j!"NOT" :: wrap (e.level < 15) e.print
  | .call f args => fnText f :: j!"(" :: (printArgs args ++ [j!")"])
  | .range f lo hi => [f, lo.text, j!"TO", hi.text]
  | .isIn f ng items => f :: ((if ng then [j!"NOT"] else []) ++ j!"IN" :: j!"(" :: (printArgs items ++ [j!")"]))
  | .contains f o items => f :: arrText o :: j!"(" :: (printArgs items ++ [j!")"])
/-- Arguments separated by commas. -/
def printArgs : List Expr → List JStr
  | [] => []
  | e :: es => e.print ++ printMore es
def printMore : List Expr → List JStr
  | [] => []
  | e :: es => j!"," :: (e.print ++ printMore es)
end

end Expr

mutual
/-- `Prints p e ls`: the lexemes `ls` write the expression `e` where strength `p` is required: parentheses
where the binding strengths require them, and any others besides. -/
inductive Prints : Nat → Expr → List JStr → Prop
  | paren {p : Nat} {e : Expr} {ls : List JStr} : Prints 0 e ls → Prints p e (j!"(" :: (ls ++ [j!")"]))
  | field {p : Nat} {f : JStr} : Prints p (.field f) [f]
  | lit {p : Nat} {l : Lit} : Prints p (.lit l) [l.text]
  | cmp {p : Nat} {o : CmpOp} {l r : Expr} {ll lr : List JStr} : p ≤ 14 → Prints 14 l ll → Prints 15 r lr →
      Prints p (.cmp o l r) (ll ++ cmpText o :: lr)
  | neg {p : Nat} {e : Expr} {ls : List JStr} : p ≤ 13 → Prints 13 e ls → Prints p (.neg e) (j!"-" :: ls)
  | arith {p : Nat} {o : ArithOp} {l r : Expr} {ll lr : List JStr} : p ≤ strength o → Prints (strength o) l ll →
      Prints (strength o + 1) r lr → Prints p (.arith o l r) (ll ++ arithText o :: lr)
  | conn {p : Nat} {b : Bool} {l r : Expr} {ll lr : List JStr} : p ≤ 5 → Prints 5 l ll → Prints 6 r lr →
      Prints p (.conn b l r) (ll ++ connText b :: lr)
  | not {p : Nat} {e : Expr} {ls : List JStr} : p ≤ 15 → Prints 15 e ls → Prints p (.not e) (j!"NOT" :: ls)
  | call {p : Nat} {f : FuncType} {args : List Expr} {ls : List JStr} : PrintsArgs args ls →
      Prints p (.call f args) (fnText f :: j!"(" :: (ls ++ [j!")"]))
  | range {p : Nat} {f : JStr} {lo hi : Lit} : Prints p (.range f lo hi) [f, lo.text, j!"TO", hi.text]
  | isIn {p : Nat} {f : JStr} {neg : Bool} {items : List Expr} {ls : List JStr} : PrintsArgs items ls →
      Prints p (.isIn f neg items) (f :: ((if neg then [j!"NOT"] else []) ++ j!"IN" :: j!"(" :: (ls ++ [j!")"])))
  | contains {p : Nat} {f : JStr} {o : ArrOp} {items : List Expr} {ls : List JStr} : PrintsArgs items ls →
      Prints p (.contains f o items) (f :: arrText o :: j!"(" :: (ls ++ [j!")"]))
inductive PrintsArgs : List Expr → List JStr → Prop
  | nil : PrintsArgs [] []
  | cons {e : Expr} {es : List Expr} {ls ms : List JStr} : Prints 0 e ls → PrintsMore es ms →
      PrintsArgs (e :: es) (ls ++ ms)
inductive PrintsMore : List Expr → List JStr → Prop
  | nil : PrintsMore [] []
  | cons {e : Expr} {es : List Expr} {ls ms : List JStr} : Prints 0 e ls → PrintsMore es ms →
      PrintsMore (e :: es) (j!"," :: (ls ++ ms))
end

/-! ## Parse trees -/

/-- The token of a name. -/
def nameTok (f : JStr) : Token := ⟨.field, f⟩

/-- The kind of token a literal is. -/
def Lit.kind : Lit → TK
  | .int _ => .integer
  | .dec _ _ => .decimal
  | .ver _ _ _ _ => .version
  | .bool b => if b then .kTrue else .kFalse
  | .str _ _ => .word
  | .date _ => .date
  | .datetime _ => .datetime

/-- The token of a literal. -/
def Lit.token (l : Lit) : Token := ⟨l.kind, l.text⟩

mutual
/-- The parse tree of an operator tree: the same shape. -/
def Expr.tree : Expr → Tree
  | .field f => .types (nameTok f) false
  | .lit l => .types l.token false
  | .cmp o l r => .cmp o l.tree r.tree
  | .neg e => .neg e.tree
  | .arith o l r => .arith o l.tree r.tree
  | .conn b l r => .bin b l.tree r.tree
  | .not e => .not_ e.tree
  | .call f args => .func f (Expr.trees args)
  | .range f lo hi => .to_ (nameTok f) lo.token hi.token
  | .isIn f ng items => .in_ (nameTok f) ng (Expr.trees items)
  | .contains f o items => .array (nameTok f) o (Expr.trees items)
def Expr.trees : List Expr → List Tree
  | [] => []
  | e :: es => e.tree :: Expr.trees es
end

mutual
/-- Forget the parentheses of a parse tree. -/
def noParens : Tree → Tree
  | .paren t => noParens t
  | .not_ t => .not_ (noParens t)
  | .cmp o l r => .cmp o (noParens l) (noParens r)
  | .neg t => .neg (noParens t)
  | .arith o l r => .arith o (noParens l) (noParens r)
  | .func f items => .func f (noParensAll items)
  | .bin b l r => .bin b (noParens l) (noParens r)
  | .types t e => .types t e
  | .to_ f lo hi => .to_ f lo hi
  | .in_ f neg items => .in_ f neg (noParensAll items)
  | .array f o items => .array f o (noParensAll items)
def noParensAll : List Tree → List Tree
  | [] => []
  | t :: ts => noParens t :: noParensAll ts
end

/-! ## Arithmetic -/

/-- The data type a literal is read as. -/
def Lit.type : Lit → DataType
  | .int ds => if digitsValue ds ≤ 2147483647 then .integer else .long
  | .dec _ _ => .decimal
  | .ver _ _ _ _ => .version
  | .bool _ => .boolean
  | .str _ _ => .string
  | .date _ => .date
  | .datetime _ => .datetime

namespace Arith

mutual
/-- The node an arithmetic expression stands for; parentheses leave no trace. -/
def node : Arith → Node
  | .field f => .field (some f)
  | .lit l => .unary l.type l.value
  | .group e => node e
  | .op o l r => .arith o (node l) (node r)
  | .neg e => .neg (node e)
  | .call f args => .func f (nodes args)
def nodes : List Arith → List Node
  | [] => []
  | e :: es => node e :: nodes es
end

/-- No parentheses, calls or unary minus: fields, literals and `+ - * / % ^`. -/
def plain : Arith → Bool
  | .field _ => true
  | .lit _ => true
  | .op _ l r => l.plain && r.plain
  | _ => false

/-- Parentheses if required. -/
def wrap (b : Bool) (e : Arith) : Arith := if b then .group e else e

/-- Insert the parentheses the binding strengths require. -/
def minimal : Arith → Arith
  | .op o l r => .op o (wrap (l.level < strength o) l.minimal) (wrap (r.level < strength o + 1) r.minimal)
  | e => e

end Arith

namespace Cond

/-- Comparisons of fields and literals, AND, OR and NOT, without parentheses. -/
def plain : Cond → Bool
  | .cmp _ l r => l.isAtom && r.isAtom
  | .not c => c.plain
  | .conn _ l r => l.plain && r.plain
  | _ => false

/-- Parentheses if required. -/
def wrap (b : Bool) (c : Cond) : Cond := if b then .group c else c

/-- Insert the parentheses the binding strengths require: around a comparison or connective under NOT, and around
an AND/OR that is a right operand. -/
def minimal : Cond → Cond
  | .not c => .not (wrap (!c.tight) c.minimal)
  | .conn b l r => .conn b l.minimal (wrap r.isConn r.minimal)
  | c => c

end Cond

end BoolParser.Spec
