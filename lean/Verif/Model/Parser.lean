import Verif.Model.Lexer
/-!
# The parser (`BooleanExpression.g4:3-76`, generated `BooleanExpressionParser.java`)

ANTLR turns the left-recursive rule `expression` into precedence climbing; the generated method is
`BooleanExpressionParser.expression(int _p)`. Only syntactically valid input is modelled: where ANTLR
would report a syntax error and repair the token stream, the model returns `none`.
-/

namespace BoolParser

/-- Parse trees, one constructor per labelled alternative of `expression`
(`BooleanExpression.g4:7-24`). `types start empty`: `start` is the first token of the context; when the
`types` alternative matched nothing, it is the token that follows. -/
inductive Tree where
  | paren (t : Tree)
  | not_ (t : Tree)
  | cmp (op : CmpOp) (l r : Tree)
  | neg (t : Tree)
  | arith (op : ArithOp) (l r : Tree)
  | func (f : FuncType) (items : List Tree)
  | bin (conj : Bool) (l r : Tree)
  | types (start : Token) (empty : Bool)
  | to_ (f lo hi : Token)
  | in_ (f : Token) (negated : Bool) (items : List Tree)
  | array (f : Token) (op : ArrOp) (items : List Tree)

/-- A binary operator token: comparison, arithmetic, AND/OR. -/
inductive BinTok where
  | cmp (op : CmpOp)
  | arith (op : ArithOp)
  | conn (conj : Bool)
deriving DecidableEq, Repr

/-- The binary operator a token stands for. -/
def binTok : TK → Option BinTok
  | .cmp op => some (.cmp op)
  | .arith op => some (.arith op)
  | .kAnd => some (.conn true)
  | .kOr => some (.conn false)
  | _ => none

/-- Precedences of the generated parser (`precpred(_ctx, n)` in `BooleanExpressionParser.expression`):
alternatives are numbered from the end, so earlier alternatives bind tighter. -/
def BinTok.prec : BinTok → Nat
  | .cmp _ => 14
  | .arith .exp => 12
  | .arith .div => 11
  | .arith .mul => 10
  | .arith .mod => 9
  | .arith .add => 8
  | .arith .sub => 7
  | .conn _ => 5

/-- The tree of a binary operator. -/
def BinTok.mk : BinTok → Tree → Tree → Tree
  | .cmp op, l, r => .cmp op l r
  | .arith op, l, r => .arith op l r
  | .conn c, l, r => .bin c l r

/-- `types` literals (`BooleanExpression.g4:65-67`), FIELD excluded. -/
def isLitKind : TK → Bool
  | .integer | .decimal | .version | .kTrue | .kFalse | .word | .date | .datetime => true
  | _ => false

/-- Tokens on which the empty alternative of `types` is taken (the rest of the follow set of
`expression`: end of input, `)`, `,`, binary operators; `-` starts a unary expression instead). -/
def isEmptyFollow : TK → Bool
  | .eof | .rparen | .comma | .kAnd | .kOr => true
  | .cmp _ => true
  | .arith op => op != .sub
  | _ => false

/-- `numericTypes` (`BooleanExpression.g4:61-63`). -/
def isNumKind : TK → Bool
  | .integer | .decimal => true
  | _ => false

mutual
/-- `expression(_p)`: a primary, then binary operators of precedence at least `p`. -/
def pExpr : Nat → Nat → List Token → Option (Tree × List Token)
  | 0, _, _ => none
  | f + 1, p, ts =>
    match pPrimary f ts with
    | some (t, ts') => pLoop f p t ts'
    | none => none

/-- The non-left-recursive alternatives of `expression`. -/
def pPrimary : Nat → List Token → Option (Tree × List Token)
  | 0, _ => none
  | _ + 1, [] => some (.types eofTok true, [])
  | f + 1, t :: ts =>
    match t.kind with
    | .lparen =>
      match pExpr f 0 ts with
      | some (e, r :: ts') => if r.kind = .rparen then some (.paren e, ts') else none
      | _ => none
    | .kNot =>
      match pExpr f 15 ts with
      | some (e, ts') => some (.not_ e, ts')
      | none => none
    | .arith .sub =>
      match pExpr f 13 ts with
      | some (e, ts') => some (.neg e, ts')
      | none => none
    | .fn g =>
      match pWordlist f ts with
      | some (es, ts') => some (.func g es, ts')
      | none => none
    | .field =>
      match ts with
      | lo :: to_ :: hi :: ts' =>
        if isNumKind lo.kind then
          (if to_.kind = .kTo ∧ isNumKind hi.kind then some (.to_ t lo hi, ts') else none)
        else pAfterField f t ts
      | lo :: _ => if isNumKind lo.kind then none else pAfterField f t ts
      | [] => some (.types t false, [])
    | k =>
      if isLitKind k then some (.types t false, ts)
      else if isEmptyFollow k then some (.types t true, t :: ts)
      else none

/-- A FIELD token not followed by a number: IN / NOT IN / CONTAINS, otherwise a plain field. -/
def pAfterField : Nat → Token → List Token → Option (Tree × List Token)
  | 0, _, _ => none
  | _ + 1, t, [] => some (.types t false, [])
  | f + 1, t, u :: us =>
    match u.kind with
    | .kIn =>
      match pWordlist f us with
      | some (es, ts') => some (.in_ t false es, ts')
      | none => none
    | .kNot =>
      match us with
      | v :: vs =>
        if v.kind = .kIn then
          match pWordlist f vs with
          | some (es, ts') => some (.in_ t true es, ts')
          | none => none
        else none
      | [] => none
    | .cAll =>
      match pWordlist f us with
      | some (es, ts') => some (.array t .containsAll es, ts')
      | none => none
    | .cAny =>
      match pWordlist f us with
      | some (es, ts') => some (.array t .containsAny es, ts')
      | none => none
    | _ => some (.types t false, u :: us)

/-- The operator loop of `expression(_p)`: continue while the next token is a binary operator of
precedence at least `p`; the right operand is `expression(prec + 1)` (left associative). -/
def pLoop : Nat → Nat → Tree → List Token → Option (Tree × List Token)
  | 0, _, _, _ => none
  | _ + 1, _, l, [] => some (l, [])
  | f + 1, p, l, t :: ts =>
    match binTok t.kind with
    | some b =>
      if p ≤ b.prec then
        match pExpr f (b.prec + 1) ts with
        | some (r, ts') => pLoop f p (b.mk l r) ts'
        | none => none
      else some (l, t :: ts)
    | none => some (l, t :: ts)

/-- `wordlist: '(' expression (',' expression)* ')'` (`BooleanExpression.g4:52-54`; the `WS*` in the
rule never matches, white space is skipped by the lexer). -/
def pWordlist : Nat → List Token → Option (List Tree × List Token)
  | 0, _ => none
  | _ + 1, [] => none
  | f + 1, t :: ts =>
    if t.kind = .lparen then
      match pExpr f 0 ts with
      | some (e, ts') =>
        match pMore f ts' with
        | some (es, ts'') => some (e :: es, ts'')
        | none => none
      | none => none
    else none

/-- `(',' expression)* ')'`. -/
def pMore : Nat → List Token → Option (List Tree × List Token)
  | 0, _ => none
  | _ + 1, [] => none
  | f + 1, t :: ts =>
    if t.kind = .rparen then some ([], ts)
    else if t.kind = .comma then
      match pExpr f 0 ts with
      | some (e, ts') =>
        match pMore f ts' with
        | some (es, ts'') => some (e :: es, ts'')
        | none => none
      | none => none
    else none
end

/-- Fuel that always suffices (theorem `parse_fuel_enough`). -/
def parseFuel (ts : List Token) : Nat := 4 * ts.length + 4

/-- `parse: expression EOF` (`BooleanExpression.g4:3-5`); `none` = syntax error. -/
def parseTokens (ts : List Token) : Option Tree :=
  match pExpr (parseFuel ts) 0 ts with
  | some (t, []) => some t
  | _ => none

end BoolParser
