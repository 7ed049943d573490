import Verif.Model.Api
/-!
# The generated parser on any token stream

`Model/Parser.lean` gives the parse tree of a text of the grammar and nothing for other texts. The library does not
stop there: `BoolParser` (`parser/antlr/BoolParser.java:20-43`) never asks whether the parser reported a syntax error,
so the tree that ANTLR builds after repairing the token stream is walked and evaluated like any other. This file
models the generated parser (`parser/antlr/BooleanExpressionParser.java:129-1240`) together with the parts of the
ANTLR 4.13 runtime it calls: `Parser.match`, `Parser.consume`, `DefaultErrorStrategy` (`sync`, `recoverInline`,
`singleTokenDeletion`, `singleTokenInsertion`, `reportError`, `recover`, `getErrorRecoverySet`, `consumeUntil`) and
the outcome of `ParserATNSimulator.adaptivePredict`. The runtime is not in the repository; it is modelled from its
published behaviour.

Predictions. Decisions 2 to 9 of the automaton never fail: where no alternative fits the next token, the simulator
falls back on the alternative that leaves the rule (the empty `types`, the end of the operator loop). Decision 1 (the
first alternatives of `expression`) is the same except on `-`, where the alternatives "unary minus" and "empty operand
followed by a binary minus" compete; the simulator then reads ahead in the full context and throws when a token fits
neither (`minusAhead`).
-/

namespace BoolParser

/-- What follows a rule invocation in the rule that invoked it: `EOF` (`parse`, line 137), `)` (the parenthesised
alternative, line 419), `,` or `)` (`wordlist`, lines 872 and 901), or the operator loop of `expression` (all other
invocations). -/
inductive Frame where
  | eof | rparen | items | ops
deriving DecidableEq, Repr

/-- The token is a binary operator. -/
def isBinKind (k : TK) : Bool := (binTok k).isSome

/-- The tokens of a frame (`ATN.nextTokens` of the state after the invocation, without EPSILON). -/
def Frame.has : Frame → TK → Bool
  | .eof, k => k == .eof
  | .rparen, k => k == .rparen
  | .items, k => k == .comma || k == .rparen
  | .ops, k => isBinKind k

/-- `DefaultErrorStrategy.getErrorRecoverySet`: the union over all active invocations. -/
def recoverySet (ctx : List Frame) (k : TK) : Bool := ctx.any (·.has k)

/-- `ATN.nextTokens(state, ctx)` for a state at the end of a rule: what can follow in this very context. -/
def lookAfter : List Frame → TK → Bool
  | [], k => k == .eof
  | .ops :: ctx, k => isBinKind k || lookAfter ctx k
  | fr :: _, k => fr.has k

/-- The tokens that may follow `(` or `,` in a `wordlist` (`ATN.nextTokens` of states 96 and 110): since `types` can
be empty, also operators, `,` and `)`. -/
def inListKind : TK → Bool
  | .eof | .kIn | .kTo | .cAll | .cAny => false
  | _ => true

/-- The parser's state: the tokens not consumed, and the fields of `DefaultErrorStrategy` (`errorRecoveryMode`,
`lastErrorIndex` — here as the number of tokens then left —, `lastErrorStates`) and the number of reported errors. -/
structure RState where
  toks : List Token
  recovering : Bool
  lastIndex : Option Nat
  lastStates : List Nat
  errors : Nat
deriving DecidableEq, Repr

namespace RState

/-- The state in which parsing starts. -/
def init (ts : List Token) : RState := ⟨ts, false, none, [], 0⟩

/-- `LT(1)`. -/
def head (s : RState) : Token := match s.toks with | [] => eofTok | t :: _ => t

/-- `LA(1)`. -/
def la (s : RState) : TK := s.head.kind

/-- `LA(2)`. -/
def la2 (s : RState) : TK := match s.toks with | _ :: t :: _ => t.kind | _ => .eof

/-- `Parser.consume`; at the end of input nothing is consumed. -/
def consume (s : RState) : RState := { s with toks := s.toks.tail }

/-- `DefaultErrorStrategy.reportMatch`. -/
def reportMatch (s : RState) : RState := { s with recovering := false, lastIndex := none, lastStates := [] }

/-- `reportError`, `reportUnwantedToken`, `reportMissingToken`: nothing is reported while recovering. -/
def report (s : RState) : RState :=
  if s.recovering then s else { s with recovering := true, errors := s.errors + 1 }

/-- Consume a token that matches. -/
def take (s : RState) : RState := s.reportMatch.consume

end RState

/-- `consumeUntil`: the tokens skipped and the rest. -/
def skipUntil (stop : TK → Bool) : List Token → List Token × List Token
  | [] => ([], [])
  | t :: ts => if stop t.kind then ([], t :: ts) else (t :: (skipUntil stop ts).1, (skipUntil stop ts).2)

/-- `DefaultErrorStrategy.recover` in parser state number `st`: the tokens skipped (the end of input counts as one if
the fail-safe `consume` meets it) and the new state. -/
def recover (ctx : List Frame) (st : Nat) (s : RState) : List Token × RState :=
  let again := s.lastIndex = some s.toks.length ∧ st ∈ s.lastStates
  let first := if again then [s.head] else []
  let s1 := if again then s.consume else s
  let r := skipUntil (recoverySet ctx) s1.toks
  (first ++ r.1, { s1 with toks := r.2, lastIndex := some s1.toks.length, lastStates := st :: s1.lastStates })

/-- The `catch` block of a rule: `reportError`, then `recover`. -/
def failAt (ctx : List Frame) (st : Nat) (s : RState) : List Token × RState := recover ctx st s.report

/-- `match` of a token in `want`, with `recoverInline`: the tokens consumed, or `none` if an exception is thrown.
`after`: what may follow the wanted token in this context. -/
def matchTok (want after : TK → Bool) (s : RState) : Option (List Token × RState) :=
  if want s.la then some ([s.head], s.take)
  else if want s.la2 then some (s.toks.take 2, s.report.consume.take)
  else if after s.la then some ([], s.report)
  else none

/-- `sync` at a loop entry of `wordlist`: `none` if an exception is thrown. -/
def syncTok (want : TK → Bool) (s : RState) : Option RState :=
  if s.recovering then some s
  else if want s.la then some s
  else if want s.la2 then some (s.report.consume.reportMatch)
  else none

/-- What became of a `wordlist`: never entered (`ctx.data` is null), entered without getting any child
(`ctx.data.children` is null), left by an exception, complete. -/
inductive ListShape where
  | absent | childless | failed | complete
deriving DecidableEq, Repr

/-- Parse trees with repaired parts. As `Tree`, except: `to_` holds for the upper bound the first token of its
context and its text, or nothing if the context is missing; lists carry their shape; `bad` is an `expression` context
without alternative. -/
inductive RTree where
  | paren (t : RTree)
  | not_ (t : RTree)
  | cmp (op : CmpOp) (l r : RTree)
  | neg (t : RTree)
  | arith (op : ArithOp) (l r : RTree)
  | func (f : FuncType) (shape : ListShape) (items : List RTree)
  | bin (conj : Bool) (l r : RTree)
  | types (start : Token) (empty : Bool)
  | to_ (f lo : Token) (hi : Option (Token × JStr))
  | in_ (f : Token) (negated : Bool) (shape : ListShape) (items : List RTree)
  | array (f : Token) (op : ArrOp) (shape : ListShape) (items : List RTree)
  | bad

/-- The tree of a binary operator. -/
def BinTok.mkR : BinTok → RTree → RTree → RTree
  | .cmp op, l, r => .cmp op l r
  | .arith op, l, r => .arith op l r
  | .conn c, l, r => .bin c l r

/-- Where the look-ahead after a `-` stands: before an operand, after a name, after the lower bound of a range, after
`TO`, after a name and `NOT`, before the `(` of a list, after an operand. -/
inductive Ahead where
  | operand | name | range | upper | notIn | list | done
deriving DecidableEq, Repr

/-- The result of reading one token ahead: the alternatives have met, the token fits neither, or more must be read
(`opened`: the parentheses opened since the `-`, `Frame.rparen` or `Frame.items`). -/
inductive AheadStep where
  | agree | stuck
  | more (a : Ahead) (opened : List Frame)
deriving DecidableEq, Repr

/-- After an operand inside `opened`. -/
def aheadDone (opened : List Frame) : AheadStep := if opened.isEmpty then .agree else .more .done opened

/-- A token that does not start or continue an operand. -/
def aheadAfter (ctx opened : List Frame) (k : TK) : AheadStep :=
  match opened with
  | [] => if isBinKind k || lookAfter ctx k then .agree else .stuck
  | fr :: rest =>
    if isBinKind k then .more .operand opened
    else if k = .rparen then aheadDone rest
    else if k = .comma ∧ fr = .items then .more .operand opened
    else .stuck

/-- One token of the look-ahead. -/
def aheadStep (ctx : List Frame) (a : Ahead) (opened : List Frame) (k : TK) : AheadStep :=
  match a with
  | .operand =>
    match k with
    | .lparen => .more .operand (.rparen :: opened)
    | .kNot => .more .operand opened
    | .arith .sub => .more .operand opened
    | .fn _ => .more .list opened
    | .field => .more .name opened
    | k => if isLitKind k then aheadDone opened else aheadAfter ctx opened k
  | .name =>
    match k with
    | .kIn => .more .list opened
    | .kNot => .more .notIn opened
    | .cAll => .more .list opened
    | .cAny => .more .list opened
    | k => if isNumKind k then .more .range opened else aheadAfter ctx opened k
  | .range => if k = .kTo then .more .upper opened else .stuck
  | .upper => if isNumKind k then aheadDone opened else .stuck
  | .notIn => if k = .kIn then .more .list opened else .stuck
  | .list => if k = .lparen then .more .operand (.items :: opened) else .stuck
  | .done => aheadAfter ctx opened k

/-- `adaptivePredict` of decision 1 on a `-`: the full-context simulation of "unary minus" and "empty operand, then
binary minus" on the tokens after the `-`, in the context `ctx` of the `-`. The two alternatives agree from the end of
the operand on (`true`: unary minus is chosen); `false` (an exception) if a token fits neither. -/
def minusAhead (ctx : List Frame) : Ahead → List Frame → List Token → Bool
  | a, opened, [] => (a == .operand || a == .name) && opened.isEmpty && lookAfter ctx .eof
  | a, opened, t :: ts =>
    match aheadStep ctx a opened t.kind with
    | .agree => true
    | .stuck => false
    | .more a' opened' => minusAhead ctx a' opened' ts

/-- `numericTypes()` for the upper bound of a range (lines 1020-1048): its first token, its text, the state. -/
def rUpper (ctx : List Frame) (s : RState) : (Token × JStr) × RState :=
  match matchTok isNumKind (lookAfter (.ops :: ctx)) s with
  | some (us, s') => ((s.head, (us.map Token.text).flatten), s')
  | none =>
    let r := failAt (.ops :: ctx) 129 s
    ((s.head, (r.1.map Token.text).flatten), r.2)

/-- A FIELD token followed by a number (lines 443-457). -/
def rRange (ctx : List Frame) (t : Token) (s : RState) : RTree × Bool × RState :=
  match matchTok (· == .kTo) isNumKind s.take with
  | some (_, s1) => (.to_ t s.head (some (rUpper ctx s1).1), true, (rUpper ctx s1).2)
  | none => (.to_ t s.head none, false, (failAt ctx 40 s.take).2)

mutual
/-- `expression(_p)` (lines 396-665). `ctx`: the frames of the active invocations, innermost first. An exception in the
first part skips the operator loop. -/
def rExpr : Nat → Nat → List Frame → RState → Option (RTree × RState)
  | 0, _, _, _ => none
  | f + 1, p, ctx, s =>
    match rPrimary f ctx s with
    | some (t, true, s') => rLoop f p ctx t s'
    | some (t, false, s') => some (t, s')
    | none => none

/-- The first part of `expression` (lines 406-510): the tree, whether it ended without exception, the state. -/
def rPrimary : Nat → List Frame → RState → Option (RTree × Bool × RState)
  | 0, _, _ => none
  | f + 1, ctx, s =>
    match s.la with
    | .lparen =>
      match rExpr f 0 (.rparen :: ctx) s.take with
      | some (e, s1) =>
        match matchTok (· == .rparen) (lookAfter (.ops :: ctx)) s1 with
        | some (_, s2) => some (.paren e, true, s2)
        | none => some (.paren e, false, (failAt ctx 28 s1).2)
      | none => none
    | .kNot =>
      match rExpr f 15 (.ops :: ctx) s.take with
      | some (e, s1) => some (.not_ e, true, s1)
      | none => none
    | .arith .sub =>
      if minusAhead ctx .operand [] s.toks.tail then
        match rExpr f 13 (.ops :: ctx) s.take with
        | some (e, s1) => some (.neg e, true, s1)
        | none => none
      else some (.bad, false, (failAt ctx 53 s).2)
    | .fn g =>
      match rWordlist f (.ops :: ctx) s.take with
      | some (sh, es, s1) => some (.func g sh es, true, s1)
      | none => none
    | .field => if isNumKind s.take.la then some (rRange ctx s.head s.take) else rField f ctx s.head s.take
    | k =>
      if isLitKind k then some (.types s.head false, true, s.take)
      else some (.types s.head true, true, s)

/-- A FIELD token not followed by a number (lines 436-441, 467-509): IN / NOT IN / CONTAINS, otherwise a plain
field. -/
def rField : Nat → List Frame → Token → RState → Option (RTree × Bool × RState)
  | 0, _, _, _ => none
  | f + 1, ctx, t, s =>
    match s.la with
    | .kIn =>
      match rWordlist f (.ops :: ctx) s.take with
      | some (sh, es, s1) => some (.in_ t false sh es, true, s1)
      | none => none
    | .kNot =>
      match matchTok (· == .kIn) (· == .lparen) s.take with
      | some (_, s1) =>
        match rWordlist f (.ops :: ctx) s1 with
        | some (sh, es, s2) => some (.in_ t true sh es, true, s2)
        | none => none
      | none => some (.in_ t true .absent [], false, (failAt ctx 47 s.take).2)
    | .cAll =>
      match rWordlist f (.ops :: ctx) s.take with
      | some (sh, es, s1) => some (.array t .containsAll sh es, true, s1)
      | none => none
    | .cAny =>
      match rWordlist f (.ops :: ctx) s.take with
      | some (sh, es, s1) => some (.array t .containsAny sh es, true, s1)
      | none => none
    | _ => some (.types t false, true, s)

/-- The operator loop of `expression(_p)` (lines 512-655). -/
def rLoop : Nat → Nat → List Frame → RTree → RState → Option (RTree × RState)
  | 0, _, _, _, _ => none
  | f + 1, p, ctx, l, s =>
    match binTok s.la with
    | some b =>
      if p ≤ b.prec then
        match rExpr f (b.prec + 1) (.ops :: ctx) s.take with
        | some (r, s') => rLoop f p ctx (b.mkR l r) s'
        | none => none
      else some (l, s)
    | none => some (l, s)

/-- `wordlist()` (lines 851-952). `ctx` begins with its own frame. White space never reaches the parser, so the `WS`
loops are empty; the `sync` at states 122 and 124 finds what the one before it left. -/
def rWordlist : Nat → List Frame → RState → Option (ListShape × List RTree × RState)
  | 0, _, _ => none
  | f + 1, ctx, s =>
    match matchTok (· == .lparen) inListKind s with
    | none =>
      let r := failAt ctx 92 s
      some (if r.1.isEmpty then .childless else .failed, [], r.2)
    | some (_, s1) =>
      match syncTok inListKind s1 with
      | none => some (.failed, [], (failAt ctx 96 s1).2)
      | some s2 =>
        match rExpr f 0 (.items :: ctx) s2 with
        | none => none
        | some (e, s3) =>
          match syncTok (Frame.has .items) s3 with
          | none => some (.failed, [e], (failAt ctx 103 s3).2)
          | some s4 =>
            match rMore f ctx s4 with
            | none => none
            | some (sh, es, s5) => some (sh, e :: es, s5)

/-- The rest of a `wordlist` (lines 884-945): `(',' expression)* ')'`. -/
def rMore : Nat → List Frame → RState → Option (ListShape × List RTree × RState)
  | 0, _, _ => none
  | f + 1, ctx, s =>
    if s.la = .comma then
      match syncTok inListKind s.take with
      | none => some (.failed, [], (failAt ctx 110 s.take).2)
      | some s1 =>
        match rExpr f 0 (.items :: ctx) s1 with
        | none => none
        | some (e, s2) =>
          match syncTok (Frame.has .items) s2 with
          | none => some (.failed, [e], (failAt ctx 117 s2).2)
          | some s3 =>
            match rMore f ctx s3 with
            | none => none
            | some (sh, es, s4) => some (sh, e :: es, s4)
    else
      match matchTok (· == .rparen) (lookAfter ctx) s with
      | some (_, s1) => some (.complete, [], s1)
      | none => some (.failed, [], (failAt ctx 125 s).2)
end

/-- `parse()` (lines 129-152): the tree of the expression and the number of reported errors. What is left after the
expression is skipped: by a single deletion if it is one token, else by `recover`. `none` never happens
(`rParse_total`). -/
def rParse (ts : List Token) : Option (RTree × Nat) :=
  match rExpr (parseFuel ts) 0 [.eof] (.init ts) with
  | none => none
  | some (t, s) =>
    match matchTok (· == .eof) (fun _ => false) s with
    | some (_, s') => some (t, s'.errors)
    | none => some (t, (failAt [] 23 s).2.errors)

/-! ## The listener on repaired trees (`parser/antlr/BooleanFilterListener.java`) -/

/-- `ctx.getStart()`, as far as its data type matters. -/
def RTree.startType : RTree → DataType
  | .types t _ => tokType t
  | .cmp _ l _ => l.startType
  | .arith _ l _ => l.startType
  | .bin _ l _ => l.startType
  | _ => .string

/-- `instanceof TypesExpressionContext`. -/
def RTree.isTypes : RTree → Bool
  | .types _ _ => true
  | _ => false

/-- `instanceof ParentExpressionContext`. -/
def RTree.isParen : RTree → Bool
  | .paren _ => true
  | _ => false

/-- The condition of `mapComparatorExpressionContext` line 159. -/
def useStackR (st : NStack) (l r : RTree) : Bool :=
  match st with
  | [] => false
  | n :: _ => (r.isParen || l.isParen) || !n.isCmpOrBool

/-- `ctx.data.children`: null if the list was never entered or has no child. -/
def ListShape.children : ListShape → Result Unit
  | .absent => .error .nullPointer
  | .childless => .error .nullPointer
  | _ => .ok ()

/-- `ctx.data.exception != null` in `mapArithmeticFunctionExpressionContext` (lines 145-148). -/
def ListShape.noException : ListShape → Result Unit
  | .complete => .ok ()
  | .absent => .error .nullPointer
  | _ => .error .invalidExpression

mutual
/-- `mapContextToNode` (lines 108-126) with the functions it calls (128-220). Error nodes are `TerminalNodeImpl`s, so
`getArrayElements` (100-106) leaves them out. -/
def mapNodeR (df : Option JStr) : RTree → NStack → Result (Node × NStack)
  | .types t e, st => do
    let n ← mapTypes df t e
    pure (n, st)
  | .func f sh items, st => do
    sh.noException
    let (ns, st) ← mapNodesR df items st
    pure (.func f ns, st)
  | .in_ f neg sh items, st => do
    sh.children
    let (ns, st) ← mapNodesR df items st
    pure (if neg then .not_ (.inn f.text ns) else .inn f.text ns, st)
  | .to_ f lo hi, st => do
    let a ← convertValue lo.text (tokType lo)
    match hi with
    | none => .error .nullPointer
    | some (u, x) =>
      let b ← convertValue x (tokType u)
      pure (.range f.text a b (tokType lo) (tokType u), st)
  | .cmp op l r, st =>
    if useStackR st l r && l.isTypes then do
      let (a, st) ← mapNodeR df l st
      let (b, st) ← popN st
      pure (.cmp a b op l.startType, st)
    else if useStackR st l r && r.isTypes then do
      let (b, st) ← mapNodeR df r st
      let (a, st) ← popN st
      pure (.cmp a b op r.startType, st)
    else do
      let (b, st) ← mapNodeR df r st
      let (a, st) ← mapNodeR df l st
      pure (.cmp a b op r.startType, st)
  | .arith op l r, st =>
    if l.isTypes && r.isTypes then do
      let (a, st) ← mapNodeR df l st
      let (b, st) ← mapNodeR df r st
      pure (.arith op a b, st)
    else if l.isTypes then do
      let (a, st) ← mapNodeR df l st
      let (b, st) ← popN st
      pure (.arith op a b, st)
    else if r.isTypes then do
      let (b, st) ← mapNodeR df r st
      let (a, st) ← popN st
      pure (.arith op a b, st)
    else
      match st with
      | b :: a :: st => .ok (.arith op a b, st)
      | _ => .error .invalidExpression
  | .paren _, _ => .error .invalidExpression
  | .not_ _, _ => .error .invalidExpression
  | .neg _, _ => .error .invalidExpression
  | .bin _ _ _, _ => .error .invalidExpression
  | .array _ _ _ _, _ => .error .invalidExpression
  | .bad, _ => .error .invalidExpression
/-- `getArrayElements` (lines 100-106). -/
def mapNodesR (df : Option JStr) : List RTree → NStack → Result (List Node × NStack)
  | [], st => .ok ([], st)
  | t :: ts, st => do
    let (n, st) ← mapNodeR df t st
    let (ns, st) ← mapNodesR df ts st
    pure (n :: ns, st)
end

/-- Push the result of `mapContextToNode` of the context being left. -/
def exitMappedR (df : Option JStr) (t : RTree) (s : LState) : Result LState := do
  let (n, st) ← mapNodeR df t s.stack
  pure { s with stack := n :: st }

/-- `exitUnaryArithmeticExpression` (lines 63-69). -/
def exitNegR (df : Option JStr) (e : RTree) (s : LState) : Result LState :=
  let leaf : Result LState :=
    match e with
    | .types t em => do
      let n ← mapTypes df t em
      pure { s with stack := .neg n :: s.stack }
    | _ => .error .classCast
  match s.stack with
  | n :: st => if n.isArithNode then .ok { s with stack := .neg n :: st } else leaf
  | [] => leaf

/-- `exitArrayExpression` (lines 77-85). -/
def exitArrayR (df : Option JStr) (f : Token) (op : ArrOp) (sh : ListShape) (items : List RTree) (s : LState) :
    Result LState := do
  sh.children
  let (ns, st) ← mapNodesR df items s.stack
  pure { s with stack := .array f.text op ns :: st }

mutual
/-- `ParseTreeWalker.walk`; an `expression` context without alternative has no exit method. -/
def walkR (df : Option JStr) : RTree → LState → Result LState
  | .paren t, s => walkR df t s
  | .not_ t, s => do
    let s ← walkR df t s
    exitNot s
  | .cmp op l r, s => do
    let s ← walkR df l s
    let s ← walkR df r s
    exitMappedR df (.cmp op l r) s
  | .neg t, s => do
    let s ← walkR df t s
    exitNegR df t s
  | .arith op l r, s => do
    let s ← walkR df l s
    let s ← walkR df r s
    exitMappedR df (.arith op l r) s
  | .func f sh items, s => do
    let s ← walkAllR df items s
    exitMappedR df (.func f sh items) s
  | .bin c l r, s => do
    let s ← walkR df l s
    let s ← walkR df r s
    exitBin c s
  | .types t _, s => .ok { s with last := some t, count := s.count + 1 }
  | .to_ f lo hi, s => exitMappedR df (.to_ f lo hi) s
  | .in_ f neg sh items, s => do
    let s ← walkAllR df items s
    exitMappedR df (.in_ f neg sh items) s
  | .array f op sh items, s => do
    let s ← walkAllR df items s
    exitArrayR df f op sh items s
  | .bad, s => .ok s
/-- Walk the expressions of a `wordlist`. -/
def walkAllR (df : Option JStr) : List RTree → LState → Result LState
  | [], s => .ok s
  | t :: ts, s => do
    let s ← walkR df t s
    walkAllR df ts s
end

/-- Run the listener over the tree of a whole text. -/
def listenR (df : Option JStr) (t : RTree) : Result Node := do
  let s ← walkR df t LState.init
  exitParse s

/-! ## Entry points -/

/-- `BoolParser.parseExpression(expression, defaultField)` (`parser/antlr/BoolParser.java:20-43`) on any text. -/
def parseAny (expr : JStr) (df : Option JStr) : Result Node :=
  match rParse (lex expr) with
  | some (t, _) => listenR df t
  | none => .error .invalidExpression

/-- `BooleanExpressionEvaluator.evaluate(expression, data, defaultField)`
(`application/BooleanExpressionEvaluator.java:48-55`) on any text. -/
def evaluateAny (env : Env) (expr : JStr) (d : Data) (df : Option JStr) : Result Bool := do
  let n ← parseAny expr df
  evalBool env d n

/-- `ArithmeticExpressionEvaluator.evaluate(expression, data)`
(`application/ArithmeticExpressionEvaluator.java:41-44`) on any text. -/
def evaluateArithAny (env : Env) (expr : JStr) (d : Data) : Result Value := do
  let n ← parseAny expr none
  evalArith env d n

/-- The number of errors the parser prints on the standard error stream (`BoolParser` leaves ANTLR's
`ConsoleErrorListener` in place). -/
def reportedErrors (expr : JStr) : Nat :=
  match rParse (lex expr) with
  | some (_, n) => n
  | none => 0

end BoolParser
