import Verif.Model.Api
import Verif.Model.Lookup
/-!
# The default locale

The parser finds the function of a call and the operator of a comparison, calculation or CONTAINS test by name:
`constant/FunctionType.java:22-28` compares `symbol.toUpperCase()` with the names of the functions,
`constant/Operator.java:38-53` compares `symbol.toLowerCase()` with the symbols in lower case. Both conversions follow
the default locale of the virtual machine. `Model/Listener` takes functions and operators from the kinds of the tokens;
here is the listener with the look-ups by name.
-/

namespace BoolParser

/-- Default locales, as far as they treat ASCII letters differently in `String.toLowerCase()` and
`String.toUpperCase()`: Turkish and Azeri, and all others. -/
inductive Locale where
  | common
  | turkish
deriving DecidableEq, Repr

/-- `String.toLowerCase()`. Simplification: besides `İ` only ASCII letters are converted. -/
def Locale.lowerChar : Locale → Char → Char
  | .common, c => BoolParser.lowerChar c
  | .turkish, c => if c = 'I' then 'ı' else if c = 'İ' then 'i' else BoolParser.lowerChar c

/-- `String.toUpperCase()`. Simplification: besides `ı` only ASCII letters are converted. -/
def Locale.upperChar : Locale → Char → Char
  | .common, c => BoolParser.upperChar c
  | .turkish, c => if c = 'i' then 'İ' else if c = 'ı' then 'I' else BoolParser.upperChar c

def Locale.lower (loc : Locale) (s : JStr) : JStr := s.map loc.lowerChar
def Locale.upper (loc : Locale) (s : JStr) : JStr := s.map loc.upperChar

/-- `FunctionType.name()` and `FunctionType.values()`, `constant/FunctionType.java:10-20`. -/
def functionNames : List (JStr × FuncType) :=
  [(j!"MIN", .min), (j!"MAX", .max), (j!"AVG", .avg), (j!"SUM", .sum), (j!"MEAN", .mean), (j!"MODE", .mode),
   (j!"MEDIAN", .median), (j!"INT", .int), (j!"LEN", .len), (j!"DAYS_ELAPSED", .daysElapsed)]

/-- `FunctionType.getArrayFunctionFromSymbol`, `constant/FunctionType.java:22-28`. -/
def functionIn (loc : Locale) (text : JStr) : Option FuncType :=
  (functionNames.find? fun p => p.1 == loc.upper text).map Prod.snd

/-- `Operator.getOperatorFromSymbol(text).orElse(Operator.EQUALS)`, `constant/Operator.java:38-53`, with all operators
registered (`Model/Lookup` has the look-up in any state of the registries). -/
def operatorIn (loc : Locale) (text : JStr) : Operator :=
  ((logicalOperators ++ arithmeticOperators).find? fun o => loc.lower o.symbol == loc.lower text).getD .equals

/-- The operator found for a CONTAINS keyword is the array operator `op`. -/
def arrayKnown (loc : Locale) (op : ArrOp) (text : JStr) : Bool := operatorIn loc text == op.slot

/-- Parse trees that keep the texts of function names and CONTAINS keywords (`ctx.left.getText()`,
`ctx.op.getText()`, `BooleanFilterListener.java:82,149`). -/
inductive NTree where
  | paren (t : NTree)
  | not_ (t : NTree)
  | cmp (op : CmpOp) (l r : NTree)
  | neg (t : NTree)
  | arith (op : ArithOp) (l r : NTree)
  | func (f : FuncType) (name : JStr) (items : List NTree)
  | bin (conj : Bool) (l r : NTree)
  | types (start : Token) (empty : Bool)
  | to_ (f lo hi : Token)
  | in_ (f : Token) (negated : Bool) (items : List NTree)
  | array (f : Token) (op : ArrOp) (name : JStr) (items : List NTree)

mutual
/-- The tree without the texts. -/
def NTree.erase : NTree → Tree
  | .paren t => .paren t.erase
  | .not_ t => .not_ t.erase
  | .cmp op l r => .cmp op l.erase r.erase
  | .neg t => .neg t.erase
  | .arith op l r => .arith op l.erase r.erase
  | .func f _ items => .func f (NTree.eraseAll items)
  | .bin c l r => .bin c l.erase r.erase
  | .types s e => .types s e
  | .to_ f lo hi => .to_ f lo hi
  | .in_ f n items => .in_ f n (NTree.eraseAll items)
  | .array f op _ items => .array f op (NTree.eraseAll items)
def NTree.eraseAll : List NTree → List Tree
  | [] => []
  | t :: ts => t.erase :: NTree.eraseAll ts
end

/-- The tokens whose texts matter: function names and CONTAINS keywords. -/
def TK.isName : TK → Bool
  | .fn _ => true
  | .cAll => true
  | .cAny => true
  | _ => false

mutual
/-- Put the names, in the order of the text, into the tree; the names left over. -/
def dress : Tree → List Token → NTree × List Token
  | .paren t, ns => (.paren (dress t ns).1, (dress t ns).2)
  | .not_ t, ns => (.not_ (dress t ns).1, (dress t ns).2)
  | .cmp op l r, ns =>
    let p := dress l ns
    let q := dress r p.2
    (.cmp op p.1 q.1, q.2)
  | .neg t, ns => (.neg (dress t ns).1, (dress t ns).2)
  | .arith op l r, ns =>
    let p := dress l ns
    let q := dress r p.2
    (.arith op p.1 q.1, q.2)
  | .func f items, ns =>
    let p := dressAll items ns.tail
    (.func f ((ns.head?.map Token.text).getD []) p.1, p.2)
  | .bin c l r, ns =>
    let p := dress l ns
    let q := dress r p.2
    (.bin c p.1 q.1, q.2)
  | .types s e, ns => (.types s e, ns)
  | .to_ f lo hi, ns => (.to_ f lo hi, ns)
  | .in_ f n items, ns =>
    let p := dressAll items ns
    (.in_ f n p.1, p.2)
  | .array f op items, ns =>
    let p := dressAll items ns.tail
    (.array f op ((ns.head?.map Token.text).getD []) p.1, p.2)
def dressAll : List Tree → List Token → List NTree × List Token
  | [], ns => ([], ns)
  | t :: ts, ns =>
    let p := dress t ns
    let q := dressAll ts p.2
    (p.1 :: q.1, q.2)
end

/-- Nodes in which an `ArrayNode` may have lost its operator: with `known = false` it holds EQUALS instead of `op`
(`BooleanFilterListener.java:82`). -/
inductive NNode where
  | cmp (l r : NNode) (op : CmpOp) (dt : DataType)
  | range (f : JStr) (lo hi : Value) (loT hiT : DataType)
  | inn (f : JStr) (items : List NNode)
  | array (f : JStr) (op : ArrOp) (known : Bool) (items : List NNode)
  | unary (dt : DataType) (v : Value)
  | and_ (l r : NNode)
  | or_ (l r : NNode)
  | not_ (l : NNode)
  | field (f : Option JStr)
  | arith (op : ArithOp) (l r : NNode)
  | neg (l : NNode)
  | func (f : FuncType) (items : List NNode)

mutual
/-- The node with the operators that were written. -/
def NNode.erase : NNode → Node
  | .cmp l r op dt => .cmp l.erase r.erase op dt
  | .range f lo hi a b => .range f lo hi a b
  | .inn f items => .inn f (NNode.eraseAll items)
  | .array f op _ items => .array f op (NNode.eraseAll items)
  | .unary dt v => .unary dt v
  | .and_ l r => .and_ l.erase r.erase
  | .or_ l r => .or_ l.erase r.erase
  | .not_ l => .not_ l.erase
  | .field f => .field f
  | .arith op l r => .arith op l.erase r.erase
  | .neg l => .neg l.erase
  | .func f items => .func f (NNode.eraseAll items)
def NNode.eraseAll : List NNode → List Node
  | [] => []
  | n :: ns => n.erase :: NNode.eraseAll ns
end

/-- A field or literal node. -/
def NNode.leaf : Node → NNode
  | .unary dt v => .unary dt v
  | .field f => .field f
  | _ => .field none

/-- `currentNodes.pop()`. -/
def popNN : List NNode → Result (NNode × List NNode)
  | [] => .error .emptyStack
  | n :: st => .ok (n, st)

/-- The condition of line 159, see `useStack`. -/
def useStackN (st : List NNode) (l r : NTree) : Bool := useStack (st.map NNode.erase) l.erase r.erase

mutual
/-- `mapContextToNode`, see `mapNode`; a name that is no function's throws before the arguments are mapped
(`BooleanFilterListener.java:145-154`). -/
def mapNodeN (loc : Locale) (df : Option JStr) : NTree → List NNode → Result (NNode × List NNode)
  | .types t e, st => do
    let n ← mapTypes df t e
    pure (.leaf n, st)
  | .func _ name items, st =>
    match functionIn loc name with
    | none => .error .invalidExpression
    | some f => do
      let (ns, st) ← mapNodesN loc df items st
      pure (.func f ns, st)
  | .in_ f neg items, st => do
    let (ns, st) ← mapNodesN loc df items st
    pure (if neg then .not_ (.inn f.text ns) else .inn f.text ns, st)
  | .to_ f lo hi, st => do
    let a ← convertValue lo.text (tokType lo)
    let b ← convertValue hi.text (tokType hi)
    pure (.range f.text a b (tokType lo) (tokType hi), st)
  | .cmp op l r, st =>
    if useStackN st l r && l.erase.isTypes then do
      let (a, st) ← mapNodeN loc df l st
      let (b, st) ← popNN st
      pure (.cmp a b op l.erase.startType, st)
    else if useStackN st l r && r.erase.isTypes then do
      let (b, st) ← mapNodeN loc df r st
      let (a, st) ← popNN st
      pure (.cmp a b op r.erase.startType, st)
    else do
      let (b, st) ← mapNodeN loc df r st
      let (a, st) ← mapNodeN loc df l st
      pure (.cmp a b op r.erase.startType, st)
  | .arith op l r, st =>
    if l.erase.isTypes && r.erase.isTypes then do
      let (a, st) ← mapNodeN loc df l st
      let (b, st) ← mapNodeN loc df r st
      pure (.arith op a b, st)
    else if l.erase.isTypes then do
      let (a, st) ← mapNodeN loc df l st
      let (b, st) ← popNN st
      pure (.arith op a b, st)
    else if r.erase.isTypes then do
      let (b, st) ← mapNodeN loc df r st
      let (a, st) ← popNN st
      pure (.arith op a b, st)
    else
      match st with
      | b :: a :: st => .ok (.arith op a b, st)
      | _ => .error .invalidExpression
  | .paren _, _ => .error .invalidExpression
  | .not_ _, _ => .error .invalidExpression
  | .neg _, _ => .error .invalidExpression
  | .bin _ _ _, _ => .error .invalidExpression
  | .array _ _ _ _, _ => .error .invalidExpression
/-- `getArrayElements`, see `mapNodes`. -/
def mapNodesN (loc : Locale) (df : Option JStr) : List NTree → List NNode → Result (List NNode × List NNode)
  | [], st => .ok ([], st)
  | t :: ts, st => do
    let (n, st) ← mapNodeN loc df t st
    let (ns, st) ← mapNodesN loc df ts st
    pure (n :: ns, st)
end

/-- The listener's fields, see `LState`. -/
structure NState where
  stack : List NNode
  last : Option Token
  count : Nat

/-- See `exitMapped`. -/
def exitMappedN (loc : Locale) (df : Option JStr) (t : NTree) (s : NState) : Result NState := do
  let (n, st) ← mapNodeN loc df t s.stack
  pure { s with stack := n :: st }

/-- `exitUnaryArithmeticExpression`, see `exitNeg`. -/
def exitNegN (df : Option JStr) (e : NTree) (s : NState) : Result NState :=
  let leaf : Result NState :=
    match e with
    | .types t em => do
      let n ← mapTypes df t em
      pure { s with stack := .neg (.leaf n) :: s.stack }
    | _ => .error .classCast
  match s.stack with
  | n :: st => if n.erase.isArithNode then .ok { s with stack := .neg n :: st } else leaf
  | [] => leaf

/-- `exitArrayExpression` (`BooleanFilterListener.java:77-85`): an operator that is not found becomes EQUALS. -/
def exitArrayN (loc : Locale) (df : Option JStr) (f : Token) (op : ArrOp) (name : JStr) (items : List NTree) (s : NState) :
    Result NState := do
  let (ns, st) ← mapNodesN loc df items s.stack
  pure { s with stack := .array f.text op (arrayKnown loc op name) ns :: st }

/-- `exitNotExpression`, see `exitNot`. -/
def exitNotN (s : NState) : Result NState :=
  match s.stack with
  | n :: st => .ok { s with stack := .not_ n :: st }
  | [] =>
    match s.last with
    | none => .error .invalidExpression
    | some t => do
      let v ← convertValue t.text (tokType t)
      pure { s with stack := [.not_ (.unary (tokType t) v)] }

/-- `exitBinaryExpression`, see `exitBin`. -/
def exitBinN (conj : Bool) (s : NState) : Result NState :=
  match s.stack with
  | b :: a :: st => .ok { s with stack := (if conj then .and_ a b else .or_ a b) :: st }
  | _ => .error .invalidExpression

mutual
/-- `ParseTreeWalker.walk`, see `walk`. -/
def walkN (loc : Locale) (df : Option JStr) : NTree → NState → Result NState
  | .paren t, s => walkN loc df t s
  | .not_ t, s => do
    let s ← walkN loc df t s
    exitNotN s
  | .cmp op l r, s => do
    let s ← walkN loc df l s
    let s ← walkN loc df r s
    exitMappedN loc df (.cmp op l r) s
  | .neg t, s => do
    let s ← walkN loc df t s
    exitNegN df t s
  | .arith op l r, s => do
    let s ← walkN loc df l s
    let s ← walkN loc df r s
    exitMappedN loc df (.arith op l r) s
  | .func f name items, s => do
    let s ← walkAllN loc df items s
    exitMappedN loc df (.func f name items) s
  | .bin c l r, s => do
    let s ← walkN loc df l s
    let s ← walkN loc df r s
    exitBinN c s
  | .types t _, s => .ok { s with last := some t, count := s.count + 1 }
  | .to_ f lo hi, s => exitMappedN loc df (.to_ f lo hi) s
  | .in_ f neg items, s => do
    let s ← walkAllN loc df items s
    exitMappedN loc df (.in_ f neg items) s
  | .array f op name items, s => do
    let s ← walkAllN loc df items s
    exitArrayN loc df f op name items s
/-- See `walkAll`. -/
def walkAllN (loc : Locale) (df : Option JStr) : List NTree → NState → Result NState
  | [], s => .ok s
  | t :: ts, s => do
    let s ← walkN loc df t s
    walkAllN loc df ts s
end

/-- `exitParse`, see there. -/
def exitParseN (s : NState) : Result NNode :=
  match s.stack with
  | n :: _ => .ok n
  | [] =>
    match s.last with
    | some t =>
      if s.count = 1 then
        if t.kind = .field then .ok (.field (some t.text))
        else do
          let v ← convertValue t.text .string
          pure (.unary .string v)
      else .error .invalidExpression
    | none => .error .invalidExpression

/-- The tree of a text with its names. -/
def treeOf (expr : JStr) : Option NTree :=
  (parseTokens (lex expr)).map fun t => (dress t ((lex expr).filter fun k => k.kind.isName)).1

/-- `BoolParser.parseExpression(expression, defaultField)` under a default locale. -/
def parseIn (loc : Locale) (expr : JStr) (df : Option JStr) : Outcome NNode :=
  match treeOf expr with
  | some t => .ofResult (do
      let s ← walkN loc df t ⟨[], none, 0⟩
      exitParseN s)
  | none => .syntaxError

mutual
/-- `BooleanExpressionEvaluator.evaluateToken`, see `evalBool`. A list is no operand for EQUALS
(`operator/comparison/EqualsOperator.java:46-49`, `operator/OperatorService.java:27-29`). The arithmetic evaluator
refuses every `ArrayNode`, so it may look at the erased node. -/
def evalBoolN (env : Env) (d : Data) : NNode → Result Bool
  | .cmp l r op _ =>
    evalComparison op l.erase r.erase (operandValue env d l.erase (evalBoolN env d l)) (operandValue env d r.erase (evalBoolN env d r))
  | .range f lo hi loT hiT => evalRange d f lo hi loT hiT
  | .inn f items => do
    let v ← requireField (some f) d
    let vs ← evalItemsN env d items
    logicalIn v (getDataType v) (flattenItems vs)
  | .array f op known items => do
    let v ← requireField (some f) d
    let vs ← evalItemsN env d items
    if heterogeneous (flattenItems vs) then throw .heterogeneousArray
    if known then logicalArray op v (getDataType v) (flattenItems vs) else throw .invalidContainerType
  | .unary dt v => evalUnary d dt v
  | .and_ l r => do
    let a ← evalBoolN env d l
    if a then evalBoolN env d r else pure false
  | .or_ l r => do
    let a ← evalBoolN env d l
    if a then pure true else evalBoolN env d r
  | .not_ l => do
    let a ← evalBoolN env d l
    pure (!a)
  | .field _ => .ok false
  | .arith _ _ _ => .ok false
  | .neg _ => .ok false
  | .func _ _ => .ok false
/-- See `evalItems`. -/
def evalItemsN (env : Env) (d : Data) : List NNode → Result (List Value)
  | [] => .ok []
  | n :: ns => do
    let v ← itemValue env d n.erase (evalBoolN env d n)
    let vs ← evalItemsN env d ns
    pure (v :: vs)
end

/-- `BooleanExpressionEvaluator.evaluate(expression, data, defaultField)` under a default locale. -/
def evaluateIn (loc : Locale) (env : Env) (expr : JStr) (d : Data) (df : Option JStr) : Outcome Bool :=
  (parseIn loc expr df).andThen (evalBoolN env d)

/-- `ArithmeticExpressionEvaluator.evaluate(expression, data)` under a default locale. -/
def evaluateArithIn (loc : Locale) (env : Env) (expr : JStr) (d : Data) : Outcome Value :=
  (parseIn loc expr none).andThen fun n => evalArith env d n.erase

end BoolParser
