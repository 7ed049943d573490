import Verif.Spec.Text
import Verif.Spec.Lexemes
/-!
# The expression language

The documented language (README, sections "Language Syntax Reference" and "Advanced Usage") as an
abstract syntax, how it is written as lexemes, and what it means. Nothing here refers to the lexer, the
parser, the listener or the evaluators of the model.
-/

namespace BoolParser.Spec
open BoolParser

/-- Lexeme by lexeme the same, up to spelling. -/
inductive Respelled : List JStr → List JStr → Prop
  | nil : Respelled [] []
  | cons {l l' : JStr} {ls ls' : List JStr} : SameLexeme l l' → Respelled ls ls' → Respelled (l :: ls) (l' :: ls')

/-- The text `s` writes the lexemes `ls`: keywords in any of their spellings, with any white space. -/
def Renders (ls : List JStr) (s : JStr) : Prop := ∃ ls', Respelled ls ls' ∧ Written ls' s

/-- Binding strength of the arithmetic operators: `^`, `/`, `*`, `%`, `+`, `-`, strongest first. -/
def strength : ArithOp → Nat
  | .exp => 12
  | .div => 11
  | .mul => 10
  | .mod => 9
  | .add => 8
  | .sub => 7

/-! ## Literals -/

/-- Value of a digit sequence. -/
def digitsValue (s : JStr) : Nat := s.foldl (fun n c => n * 10 + (c.toNat - 48)) 0

/-- The last `w` decimal digits of `n`. -/
def pad : Nat → Nat → JStr
  | 0, _ => []
  | w + 1, n => pad w (n / 10) ++ [Char.ofNat (48 + n % 10)]

/-- `yyyy-MM-dd`. -/
def dateText (d : Date) : JStr :=
  pad 4 d.year.toNat ++ j!"-" ++ pad 2 d.month ++ j!"-" ++ pad 2 d.day

/-- `yyyy-MM-dd HH:mm:ss`. -/
def dateTimeText (t : DateTime) : JStr :=
  dateText t.date ++ j!" " ++ pad 2 t.hour ++ j!":" ++ pad 2 t.minute ++ j!":" ++ pad 2 t.second

/-- Dotted components. -/
def dots : List JStr → JStr
  | [] => []
  | p :: ps => '.' :: (p ++ dots ps)

/-- A calendar date of the years 1 to 9999. -/
def RealDate (d : Date) : Prop :=
  1 ≤ d.year ∧ d.year ≤ 9999 ∧ 1 ≤ d.month ∧ d.month ≤ 12 ∧ 1 ≤ d.day ∧ d.day ≤ monthLen d.year d.month

instance (d : Date) : Decidable (RealDate d) := by unfold RealDate; infer_instance

/-- A literal as written. `ver c p q ps` is the version `c.p.q.….` with a one-digit first component. -/
inductive Lit where
  | int (ds : JStr)
  | dec (a b : JStr)
  | ver (c : Char) (p q : JStr) (ps : List JStr)
  | bool (b : Bool)
  | str (quote : Char) (s : JStr)
  | date (d : Date)
  | datetime (t : DateTime)

namespace Lit

/-- The lexeme. -/
def text : Lit → JStr
  | .int ds => ds
  | .dec a b => a ++ '.' :: b
  | .ver c p q ps => c :: dots (p :: q :: ps)
  | .bool true => j!"true"
  | .bool false => j!"false"
  | .str q s => q :: (s ++ [q])
  | .date d => dateText d
  | .datetime t => dateTimeText t

/-- Is this a literal? Whole numbers must fit 64 bits, strings must not contain their own quote. -/
def Valid : Lit → Prop
  | .int ds => IsDigits ds ∧ digitsValue ds ≤ 9223372036854775807
  | .dec a b => IsDigits a ∧ IsDigits b
  | .ver c p q ps => isDigit c = true ∧ IsDigits p ∧ IsDigits q ∧ ∀ r ∈ ps, IsDigits r
  | .bool _ => True
  | .str q s => (q = '\'' ∨ q = '"') ∧ q ∉ s
  | .date d => RealDate d
  | .datetime t => RealDate t.date ∧ t.hour ≤ 23 ∧ t.minute ≤ 59 ∧ t.second ≤ 59 ∧ t.nano = 0

instance (l : Lit) : Decidable l.Valid := by
  cases l <;> (unfold Valid; infer_instance)

/-- The value a literal denotes. -/
def value : Lit → Value
  | .int ds => if digitsValue ds ≤ 2147483647 then .int (digitsValue ds) else .long (digitsValue ds)
  | .dec a b => .dec ⟨digitsValue (a ++ b), b.length⟩
  | .ver c p q ps => .ver (c :: dots (p :: q :: ps))
  | .bool b => .bool b
  | .str _ s => .str s
  | .date d => .date d
  | .datetime t => .datetime t

/-- `INTEGER` or `DECIMAL`: the literals allowed as range bounds. -/
def isNumber : Lit → Bool
  | .int _ => true
  | .dec _ _ => true
  | _ => false

end Lit

/-! ## Arithmetic expressions -/

/-- Arithmetic expressions. `group e` is `(e)`. -/
inductive Arith where
  | field (f : JStr)
  | lit (l : Lit)
  | group (e : Arith)
  | op (o : ArithOp) (l r : Arith)
  | neg (e : Arith)
  | call (f : FuncType) (args : List Arith)

namespace Arith

/-- A field or a literal. -/
def isAtom : Arith → Bool
  | .field _ => true
  | .lit _ => true
  | _ => false

mutual
/-- How it is written. -/
def lexemes : Arith → List JStr
  | .field f => [f]
  | .lit l => [l.text]
  | .group e => j!"(" :: (lexemes e ++ [j!")"])
  | .op o l r => lexemes l ++ arithText o :: lexemes r
  | .neg e => j!"-" :: lexemes e
  | .call f args => fnText f :: j!"(" :: (argLexemes args ++ [j!")"])
/-- Arguments separated by commas. -/
def argLexemes : List Arith → List JStr
  | [] => []
  | e :: es => lexemes e ++ moreLexemes es
def moreLexemes : List Arith → List JStr
  | [] => []
  | e :: es => j!"," :: (lexemes e ++ moreLexemes es)
end

mutual
/-- Names are names, literals are literals, calls have arguments. -/
def Valid : Arith → Prop
  | .field f => IsName f
  | .lit l => l.Valid
  | .group e => e.Valid
  | .op _ l r => l.Valid ∧ r.Valid
  | .neg e => e.Valid
  | .call _ args => args ≠ [] ∧ AllValid args
def AllValid : List Arith → Prop
  | [] => True
  | e :: es => e.Valid ∧ AllValid es
end

/-- Binding strength of the outermost operator. -/
def level : Arith → Nat
  | .op o _ _ => strength o
  | .neg _ => 13
  | _ => 16

mutual
/-- Operands are parenthesised where the binding strengths require it: the left operand must bind at
least as strongly as its operator, the right operand more strongly. -/
def Grouped : Arith → Prop
  | .field _ => True
  | .lit _ => True
  | .group e => e.Grouped
  | .op o l r => l.Grouped ∧ r.Grouped ∧ strength o ≤ l.level ∧ strength o < r.level
  | .neg e => e.Grouped ∧ 13 ≤ e.level
  | .call _ args => AllGrouped args
def AllGrouped : List Arith → Prop
  | [] => True
  | e :: es => e.Grouped ∧ AllGrouped es
end

/-! ### Limits of the parser

The library's parser builds some expressions wrongly or rejects them although the grammar accepts them;
the following predicates exclude those. -/

/-- An operator expression, possibly in parentheses. -/
def isOperation : Arith → Bool
  | .group e => e.isOperation
  | .op _ _ _ => true
  | .neg _ => true
  | _ => false

mutual
/-- Arguments may be atoms, one operator between two atoms, or calls with such arguments. -/
def simpleArg : Arith → Bool
  | .field _ => true
  | .lit _ => true
  | .op _ l r => l.isAtom && r.isAtom
  | .call _ args => simpleArgs args
  | _ => false
def simpleArgs : List Arith → Bool
  | [] => true
  | e :: es => simpleArg e && simpleArgs es
end

/-- All function arguments inside are atoms. -/
def tidy : Arith → Bool
  | .field _ => true
  | .lit _ => true
  | .group e => e.tidy
  | .op _ l r => l.tidy && r.tidy
  | .neg e => e.tidy
  | .call _ args => args.all isAtom

/-- Expressions the parser gets right; `after` says that an operator expression stands directly to the
left. Excluded: parentheses around a single atom, the negation of a call, the negation of an atom right
after an operator expression, and calls with compound arguments as right operand of a compound. -/
def readable (after : Bool) : Arith → Bool
  | .field _ => true
  | .lit _ => true
  | .group e => !e.isAtom && e.readable after
  | .op _ l r => l.readable after && (r.readable (if l.isAtom then after else l.isOperation)
      && (l.isAtom || (r.isAtom || r.tidy)))
  | .neg e => if e.isAtom then !after else e.readable after && e.isOperation
  | .call _ args => simpleArgs args

/-! ### Meaning -/

/-- Apply an arithmetic operator to two values. -/
def apply (env : Env) (o : ArithOp) (a b : Value) : Result Value :=
  arithBinary env o a (getDataType a) b (getDataType b)

/-- Negate a value. -/
def negate (a : Value) : Result Value := arithNegate a (getDataType a)

/-- The value of a field; missing data is a failure. -/
def fieldValue (f : JStr) (d : Data) : Result Value := do
  match ← getValueFromMap f d with
  | some v => pure v
  | none => throw .dataNotFound

mutual
/-- The value of an expression: operands left to right, then the operator or function. -/
def value (env : Env) (d : Data) : Arith → Result Value
  | .field f => fieldValue f d
  | .lit l => .ok l.value
  | .group e => value env d e
  | .op o l r => do
    let a ← value env d l
    let b ← value env d r
    apply env o a b
  | .neg e => do
    let a ← value env d e
    negate a
  | .call f args => do
    let vs ← values env d args
    callFn env f (flattenItems vs)
def values (env : Env) (d : Data) : List Arith → Result (List Value)
  | [] => .ok []
  | e :: es => do
    let v ← value env d e
    let vs ← values env d es
    pure (v :: vs)
end

end Arith

/-! ## Conditions -/

/-- Conditions. `group c` is `(c)`; `cmpD` is a comparison whose left operand is omitted (default
field); `isNull f eq` is `f = null` / `f != null`; `notField f` is `NOT f`. -/
inductive Cond where
  | cmp (o : CmpOp) (l r : Arith)
  | cmpD (o : CmpOp) (r : Arith)
  | isNull (f : JStr) (eq : Bool)
  | range (f : JStr) (lo hi : Lit)
  | isIn (f : JStr) (negated : Bool) (items : List Arith)
  | contains (f : JStr) (o : ArrOp) (items : List Arith)
  | notField (f : JStr)
  | not (c : Cond)
  | group (c : Cond)
  | conn (conj : Bool) (l r : Cond)

namespace Cond

/-- How it is written. -/
def lexemes : Cond → List JStr
  | .cmp o l r => l.lexemes ++ cmpText o :: r.lexemes
  | .cmpD o r => cmpText o :: r.lexemes
  | .isNull f eq => [f, if eq then j!"=" else j!"!=", j!"null"]
  | .range f lo hi => [f, lo.text, j!"TO", hi.text]
  | .isIn f neg items =>
    f :: ((if neg then [j!"NOT"] else []) ++ j!"IN" :: j!"(" :: (Arith.argLexemes items ++ [j!")"]))
  | .contains f o items => f :: arrText o :: j!"(" :: (Arith.argLexemes items ++ [j!")"])
  | .notField f => [j!"NOT", f]
  | .not c => j!"NOT" :: c.lexemes
  | .group c => j!"(" :: (c.lexemes ++ [j!")"])
  | .conn conj l r => l.lexemes ++ connText conj :: r.lexemes

/-- The word `null` in any spelling; as an operand of `=`/`!=` it makes the test a null check. -/
def isNullWord : Arith → Bool
  | .field f => lower f == j!"null"
  | _ => false

/-- Names are names, literals are literals, lists are not empty; an operand of `=`/`!=` is not the word
`null` (null checks are `isNull`). -/
def Valid : Cond → Prop
  | .cmp o l r => l.Valid ∧ r.Valid ∧
      ((o = .eq ∨ o = .ne) → isNullWord l = false ∧ isNullWord r = false)
  | .cmpD o r => r.Valid ∧ ((o = .eq ∨ o = .ne) → isNullWord r = false)
  | .isNull f _ => IsName f
  | .range f lo hi => IsName f ∧ lo.Valid ∧ hi.Valid ∧ lo.isNumber = true ∧ hi.isNumber = true
  | .isIn f _ items => IsName f ∧ items ≠ [] ∧ Arith.AllValid items
  | .contains f _ items => IsName f ∧ items ≠ [] ∧ Arith.AllValid items
  | .notField f => IsName f
  | .not c => c.Valid
  | .group c => c.Valid
  | .conn _ l r => l.Valid ∧ r.Valid

/-- Can stand behind NOT without parentheses. -/
def tight : Cond → Bool
  | .range _ _ _ => true
  | .isIn _ _ _ => true
  | .contains _ _ _ => true
  | .notField _ => true
  | .not _ => true
  | .group _ => true
  | _ => false

/-- Is the condition an unparenthesised AND/OR? -/
def isConn : Cond → Bool
  | .conn _ _ _ => true
  | _ => false

/-- Operands are parenthesised where required: comparisons bind stronger than arithmetic, AND and OR
bind weakest, equally strong and to the left; NOT takes the next tight condition only. -/
def Grouped : Cond → Prop
  | .cmp _ l r => l.Grouped ∧ r.Grouped ∧ 16 ≤ l.level ∧ 13 ≤ r.level
  | .cmpD _ r => r.Grouped ∧ 13 ≤ r.level
  | .isNull _ _ => True
  | .range _ _ _ => True
  | .isIn _ _ items => Arith.AllGrouped items
  | .contains _ _ items => Arith.AllGrouped items
  | .notField _ => True
  | .not c => c.Grouped ∧ c.tight = true
  | .group c => c.Grouped
  | .conn _ l r => l.Grouped ∧ r.Grouped ∧ r.isConn = false

/-! ### Limits of the parser -/

/-- What stands directly to the left of a condition, as far as the parser's behaviour depends on it. -/
inductive Left where
  | nothing
  | test
  | membership
deriving DecidableEq

/-- What a condition is for the condition to its right: an unnegated IN, a range or a CONTAINS test is a
`membership`. -/
def asLeft : Cond → Left
  | .range _ _ _ => .membership
  | .isIn _ neg _ => if neg then .test else .membership
  | .contains _ _ _ => .membership
  | .group c => c.asLeft
  | _ => .test

/-- All function arguments and list items inside are atoms, and no comparison has two calls. -/
def tidy : Cond → Bool
  | .cmp _ l r => (l.isAtom || r.isAtom) && (l.tidy && r.tidy)
  | .cmpD _ r => r.tidy
  | .isNull _ _ => true
  | .range _ _ _ => true
  | .isIn _ _ items => items.all Arith.isAtom
  | .contains _ _ items => items.all Arith.isAtom
  | .notField _ => true
  | .not c => c.tidy
  | .group c => c.tidy
  | .conn _ l r => l.tidy && r.tidy

/-- A function call (not in parentheses). -/
def isCall : Arith → Bool
  | .call _ _ => true
  | _ => false

/-- Conditions the parser gets right. A comparison of two atoms must not come directly after a
membership test; one side of a comparison is an atom, or both are calls; `NOT f` for a bare field comes
first; in a right operand of AND/OR all function arguments are atoms. -/
def readable (left : Left) : Cond → Bool
  | .cmp _ l r =>
    if l.isAtom && r.isAtom then left != .membership
    else if l.isAtom then r.readable false
    else if r.isAtom then l.readable false
    else isCall l && (isCall r && (l.readable false && r.readable false))
  | .cmpD _ r => if r.isAtom then left != .membership else r.readable false
  | .isNull _ _ => left != .membership
  | .range _ _ _ => true
  | .isIn _ _ items => Arith.simpleArgs items
  | .contains _ _ items => Arith.simpleArgs items
  | .notField _ => left == .nothing
  | .not c => c.readable left
  | .group c => c.readable left
  | .conn _ l r => l.readable left && (r.readable l.asLeft && r.tidy)

/-! ### Meaning -/

/-- Compare two values. -/
def compare (o : CmpOp) (a b : Value) : Result Bool := logicalCmp o a (getDataType a) b (getDataType b)

/-- The value of the right operand of a comparison; a missing field is reported with another exception
than on the left. -/
def rightValue (env : Env) (d : Data) : Arith → Result Value
  | .field f => do
    match ← getValueFromMap f d with
    | some v => pure v
    | none => throw .noSuchElement
  | e => e.value env d

/-- The field an omitted operand stands for; without a default field there is none. -/
def defaultValue (df : Option JStr) (d : Data) : Result Value :=
  match df with
  | some f => Arith.fieldValue f d
  | none => .error .nullPointer

/-- The text of a value, the text `null` for a missing one, compared with the text `null`. -/
def nullCheck (o : CmpOp) (v : Option Value) : Result Bool :=
  match v with
  | none => compare o (.str j!"null") (.str j!"null")
  | some v => compare o v (.str j!"null")

/-- Does the value equal (in the sense of `=`) one of the items? Collections among the items count as
their elements. -/
def member (v : Value) (items : List Value) : Result Bool :=
  logicalIn v (getDataType v) (flattenItems items)

/-- CONTAINS_ALL / CONTAINS_ANY. -/
def containsTest (o : ArrOp) (v : Value) (items : List Value) : Result Bool := do
  if heterogeneous' (flattenItems items) then throw .heterogeneousArray
  logicalArray o v (getDataType v) (flattenItems items)
where
  /-- Items of more than one data type. -/
  heterogeneous' : List Typed → Bool
    | [] => false
    | x :: xs => xs.any (fun y => y.2 != x.2)

/-- The outcome of a condition. -/
def meaning (env : Env) (d : Data) (df : Option JStr) : Cond → Result Bool
  | .cmp o l r => do
    let a ← l.value env d
    let b ← rightValue env d r
    compare o a b
  | .cmpD o r => do
    let a ← defaultValue df d
    let b ← rightValue env d r
    compare o a b
  | .isNull f eq => do
    let v ← getValueFromMap f d
    nullCheck (if eq then .eq else .ne) v
  | .range f lo hi => do
    let v ← Arith.fieldValue f d
    let a ← compare .ge v lo.value
    let b ← compare .le v hi.value
    pure (a && b)
  | .isIn f negated items => do
    let v ← Arith.fieldValue f d
    let vs ← Arith.values env d items
    let b ← member v vs
    pure (if negated then !b else b)
  | .contains f o items => do
    let v ← Arith.fieldValue f d
    let vs ← Arith.values env d items
    containsTest o v vs
  | .notField f => do
    match ← Arith.fieldValue f d with
    | .bool b => pure (!b)
    | _ => throw .invalidUnaryOperand
  | .not c => do
    let a ← c.meaning env d df
    pure (!a)
  | .group c => c.meaning env d df
  | .conn conj l r => do
    let a ← l.meaning env d df
    if conj then (if a then r.meaning env d df else pure false)
    else (if a then pure true else r.meaning env d df)

end Cond
end BoolParser.Spec
