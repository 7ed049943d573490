import Verif.Model.Node
import Verif.Model.Parser
/-!
# The listener (`parser/antlr/BooleanFilterListener.java`)

Walks the parse tree in post-order and builds nodes with a stack.
-/

namespace BoolParser

/-- `ValueUtils.getNumericDataType` (`util/ValueUtils.java:110-121`). -/
def numericType (s : JStr) : DataType := if (parseInt32 s).isSome then .integer else .long

/-- `getDataType(Token)` (`BooleanFilterListener.java:232-250`). -/
def tokType (t : Token) : DataType :=
  match t.kind with
  | .decimal => .decimal
  | .integer => numericType t.text
  | .version => .version
  | .kTrue => .boolean
  | .kFalse => .boolean
  | .date => .date
  | .datetime => .datetime
  | _ => .string

/-- `substring(1, length - 1)`; throws on a one-character text. -/
def unquote (s : JStr) : Result JStr :=
  if s.length < 2 then .error .indexOutOfBounds else .ok ((s.drop 1).dropLast)

/-- `ValueUtils.convertValue` (`util/ValueUtils.java:62-87`). A date text that is not a date becomes
null. -/
def convertValue (s : JStr) (t : DataType) : Result Value :=
  match t with
  | .integer => match parseInt32 s with
    | some n => .ok (.int n)
    | none => .error .numberFormat
  | .long => match parseInt64 s with
    | some n => .ok (.long n)
    | none => .error .numberFormat
  | .decimal => match Dec.parse s with
    | some d => .ok (.dec d)
    | none => .error .numberFormat
  | .boolean => .ok (.bool (isTrueText s))
  | .version => .ok (.ver s)
  | .date => .ok (match parseDate s with | some d => .date d | none => .null)
  | .datetime => .ok (match parseDateTime s with | some d => .datetime d | none => .null)
  | .string =>
    if s.head? = some '\'' ∧ s.getLast? = some '\'' then do
      let r ← unquote s
      pure (.str r)
    else if s.head? = some '"' ∧ s.getLast? = some '"' then do
      let r ← unquote s
      pure (.str r)
    else .ok (.str s)

/-- `ctx.getStart()`, as far as its data type matters: only a `types` context starts with a literal. -/
def Tree.startType : Tree → DataType
  | .types t _ => tokType t
  | .cmp _ l _ => l.startType
  | .arith _ l _ => l.startType
  | .bin _ l _ => l.startType
  | _ => .string

/-- `instanceof TypesExpressionContext`. -/
def Tree.isTypes : Tree → Bool
  | .types _ _ => true
  | _ => false

/-- `instanceof ParentExpressionContext`. -/
def Tree.isParen : Tree → Bool
  | .paren _ => true
  | _ => false

/-- `mapTypesExpressionContext` / `mapTypesExpressionContextField`
(`BooleanFilterListener.java:128-143`): an empty context stands for the default field. -/
def mapTypes (df : Option JStr) (t : Token) (empty : Bool) : Result Node :=
  if t.kind = .field then .ok (.field (if empty then df else some t.text))
  else if empty then .ok (.field df)
  else do
    let v ← convertValue t.text (tokType t)
    pure (.unary (tokType t) v)

/-- The stack of the listener, top first. -/
abbrev NStack := List Node

/-- `currentNodes.pop()`. -/
def popN : NStack → Result (Node × NStack)
  | [] => .error .emptyStack
  | n :: st => .ok (n, st)

/-- The condition of `mapComparatorExpressionContext` line 159. -/
def useStack (st : NStack) (l r : Tree) : Bool :=
  match st with
  | [] => false
  | n :: _ => (r.isParen || l.isParen) || !n.isCmpOrBool

mutual
/-- `mapContextToNode` (`BooleanFilterListener.java:108-126`) with the functions it calls:
`mapTypesExpressionContext` 128-143, `mapArithmeticFunctionExpressionContext` 145-154,
`mapComparatorExpressionContext` 156-174, `mapArithmeticExpressionContext` 176-198,
`mapInExpressionContext` 200-210, `mapToExpressionContext` 212-220. It may pop nodes off the stack.
FIELD tokens are never blank, so `validateField`/`getField` (222-230) return the token's text. -/
def mapNode (df : Option JStr) : Tree → NStack → Result (Node × NStack)
  | .types t e, st => do
    let n ← mapTypes df t e
    pure (n, st)
  | .func f items, st => do
    let (ns, st) ← mapNodes df items st
    pure (.func f ns, st)
  | .in_ f neg items, st => do
    let (ns, st) ← mapNodes df items st
    pure (if neg then .not_ (.inn f.text ns) else .inn f.text ns, st)
  | .to_ f lo hi, st => do
    let a ← convertValue lo.text (tokType lo)
    let b ← convertValue hi.text (tokType hi)
    pure (.range f.text a b (tokType lo) (tokType hi), st)
  | .cmp op l r, st =>
    if useStack st l r && l.isTypes then do
      let (a, st) ← mapNode df l st
      let (b, st) ← popN st
      pure (.cmp a b op l.startType, st)
    else if useStack st l r && r.isTypes then do
      let (b, st) ← mapNode df r st
      let (a, st) ← popN st
      pure (.cmp a b op r.startType, st)
    else do
      let (b, st) ← mapNode df r st
      let (a, st) ← mapNode df l st
      pure (.cmp a b op r.startType, st)
  | .arith op l r, st =>
    if l.isTypes && r.isTypes then do
      let (a, st) ← mapNode df l st
      let (b, st) ← mapNode df r st
      pure (.arith op a b, st)
    else if l.isTypes then do
      let (a, st) ← mapNode df l st
      let (b, st) ← popN st
      pure (.arith op a b, st)
    else if r.isTypes then do
      let (b, st) ← mapNode df r st
      let (a, st) ← popN st
      pure (.arith op a b, st)
    else
      match st with
      | b :: a :: st => .ok (.arith op a b, st)
      | _ => .error .invalidExpression
  | .paren _, _ => .error .invalidExpression
  | .not_ _, _ => .error .invalidExpression
  | .neg _, _ => .error .invalidExpression
  | .bin _ _ _, _ => .error .invalidExpression
  | .array _ _ _, _ => .error .invalidExpression
/-- `getArrayElements` (`BooleanFilterListener.java:100-106`). -/
def mapNodes (df : Option JStr) : List Tree → NStack → Result (List Node × NStack)
  | [], st => .ok ([], st)
  | t :: ts, st => do
    let (n, st) ← mapNode df t st
    let (ns, st) ← mapNodes df ts st
    pure (n :: ns, st)
end

/-- The listener's fields (`BooleanFilterListener.java:30-38`). -/
structure LState where
  stack : NStack
  last : Option Token
  count : Nat

/-- The state before the walk (`BooleanFilterListener.java:40-45`). -/
def LState.init : LState := ⟨[], none, 0⟩

/-- Push the result of `mapContextToNode` of the context being left. -/
def exitMapped (df : Option JStr) (t : Tree) (s : LState) : Result LState := do
  let (n, st) ← mapNode df t s.stack
  pure { s with stack := n :: st }

/-- `exitUnaryArithmeticExpression` (`BooleanFilterListener.java:63-69`): an arithmetic node on top of
the stack is taken whatever the operand is, otherwise the operand is cast to a `types` context. -/
def exitNeg (df : Option JStr) (e : Tree) (s : LState) : Result LState :=
  let leaf : Result LState :=
    match e with
    | .types t em => do
      let n ← mapTypes df t em
      pure { s with stack := .neg n :: s.stack }
    | _ => .error .classCast
  match s.stack with
  | n :: st => if n.isArithNode then .ok { s with stack := .neg n :: st } else leaf
  | [] => leaf

/-- `exitArrayExpression` (`BooleanFilterListener.java:77-85`). -/
def exitArray (df : Option JStr) (f : Token) (op : ArrOp) (items : List Tree) (s : LState) :
    Result LState := do
  let (ns, st) ← mapNodes df items s.stack
  pure { s with stack := .array f.text op ns :: st }

/-- `exitNotExpression` (`BooleanFilterListener.java:278-291`). -/
def exitNot (s : LState) : Result LState :=
  match s.stack with
  | n :: st => .ok { s with stack := .not_ n :: st }
  | [] =>
    match s.last with
    | none => .error .invalidExpression
    | some t => do
      let v ← convertValue t.text (tokType t)
      pure { s with stack := [.not_ (.unary (tokType t) v)] }

/-- `exitBinaryExpression` (`BooleanFilterListener.java:299-310`). -/
def exitBin (conj : Bool) (s : LState) : Result LState :=
  match s.stack with
  | b :: a :: st => .ok { s with stack := (if conj then .and_ a b else .or_ a b) :: st }
  | _ => .error .invalidExpression

mutual
/-- `ParseTreeWalker.walk`: children left to right, then the exit method of the context
(`BooleanFilterListener.java:51-98,278-310`). -/
def walk (df : Option JStr) : Tree → LState → Result LState
  | .paren t, s => walk df t s
  | .not_ t, s => do
    let s ← walk df t s
    exitNot s
  | .cmp op l r, s => do
    let s ← walk df l s
    let s ← walk df r s
    exitMapped df (.cmp op l r) s
  | .neg t, s => do
    let s ← walk df t s
    exitNeg df t s
  | .arith op l r, s => do
    let s ← walk df l s
    let s ← walk df r s
    exitMapped df (.arith op l r) s
  | .func f items, s => do
    let s ← walkAll df items s
    exitMapped df (.func f items) s
  | .bin c l r, s => do
    let s ← walk df l s
    let s ← walk df r s
    exitBin c s
  | .types t _, s => .ok { s with last := some t, count := s.count + 1 }
  | .to_ f lo hi, s => exitMapped df (.to_ f lo hi) s
  | .in_ f neg items, s => do
    let s ← walkAll df items s
    exitMapped df (.in_ f neg items) s
  | .array f op items, s => do
    let s ← walkAll df items s
    exitArray df f op items s
/-- Walk the expressions of a `wordlist`. -/
def walkAll (df : Option JStr) : List Tree → LState → Result LState
  | [], s => .ok s
  | t :: ts, s => do
    let s ← walk df t s
    walkAll df ts s
end

/-- `exitParse` (`BooleanFilterListener.java:263-276`). -/
def exitParse (s : LState) : Result Node :=
  match s.stack with
  | n :: _ => .ok n
  | [] =>
    match s.last with
    | some t =>
      if s.count = 1 then
        if t.kind = .field then .ok (.field (some t.text))
        else do
          let v ← convertValue t.text .string
          pure (.unary .string v)
      else .error .invalidExpression
    | none => .error .invalidExpression

/-- Run the listener over the tree of a whole expression. -/
def listen (df : Option JStr) (t : Tree) : Result Node := do
  let s ← walk df t LState.init
  exitParse s

end BoolParser
