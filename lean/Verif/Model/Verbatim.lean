import Verif.Model.Recovery
import Verif.Model.Wording
import Verif.Model.Locale
/-!
# The generated parser on any token stream, with the texts of its contexts

`Model/Recovery.lean` once more, with what it leaves out: the text of every context (`ctx.getText()`), which the listener
quotes in its messages, and the texts of function names and CONTAINS keywords, which it looks up under the default locale.
Tokens that were skipped are children of the context they were skipped in (`Parser.consume`), and a token that was conjured
up (`DefaultErrorStrategy.getMissingSymbol`) has the text `<missing ...>`.
-/

namespace BoolParser

/-- As `RTree`, with the text of every context and the names. -/
inductive VTree where
  | paren (x : JStr) (t : VTree)
  | not_ (x : JStr) (t : VTree)
  | cmp (x : JStr) (op : CmpOp) (l r : VTree)
  | neg (x : JStr) (t : VTree)
  | arith (x : JStr) (op : ArithOp) (l r : VTree)
  | func (x : JStr) (f : FuncType) (name : JStr) (shape : ListShape) (items : List VTree)
  | bin (x : JStr) (conj : Bool) (l r : VTree)
  | types (start : Token) (empty : Bool)
  | to_ (x : JStr) (f lo : Token) (hi : Option (Token × JStr))
  | in_ (x : JStr) (f : Token) (negated : Bool) (shape : ListShape) (items : List VTree)
  | array (x : JStr) (f : Token) (op : ArrOp) (name : JStr) (shape : ListShape) (items : List VTree)
  | bad (x : JStr)

/-- `ctx.getText()`. -/
def VTree.text : VTree → JStr
  | .paren x _ => x
  | .not_ x _ => x
  | .cmp x _ _ _ => x
  | .neg x _ => x
  | .arith x _ _ _ => x
  | .func x _ _ _ _ => x
  | .bin x _ _ _ => x
  | .types t e => if e then [] else t.text
  | .to_ x _ _ _ => x
  | .in_ x _ _ _ _ => x
  | .array x _ _ _ _ _ => x
  | .bad x => x

mutual
/-- The tree without the texts. -/
def VTree.erase : VTree → RTree
  | .paren _ t => .paren t.erase
  | .not_ _ t => .not_ t.erase
  | .cmp _ op l r => .cmp op l.erase r.erase
  | .neg _ t => .neg t.erase
  | .arith _ op l r => .arith op l.erase r.erase
  | .func _ f _ sh items => .func f sh (VTree.eraseAll items)
  | .bin _ c l r => .bin c l.erase r.erase
  | .types t e => .types t e
  | .to_ _ f lo hi => .to_ f lo hi
  | .in_ _ f n sh items => .in_ f n sh (VTree.eraseAll items)
  | .array _ f op _ sh items => .array f op sh (VTree.eraseAll items)
  | .bad _ => .bad
def VTree.eraseAll : List VTree → List RTree
  | [] => []
  | t :: ts => t.erase :: VTree.eraseAll ts
end

/-- The texts of tokens, with nothing between them. -/
def textOf (ts : List Token) : JStr := (ts.map Token.text).flatten

/-- The text of the children that `match` adds: the tokens consumed, or the token conjured up. -/
def matchText (mark : JStr) (us : List Token) : JStr := if us.isEmpty then mark else textOf us

/-- The text of the children that `sync` adds (see `syncTok`): a token deleted. -/
def syncText (want : TK → Bool) (s : RState) : JStr :=
  if s.recovering then [] else if want s.la then [] else if want s.la2 then textOf [s.head] else []

/-- See `BinTok.mkR`; `o` is the text of the operator. -/
def BinTok.mkV : BinTok → JStr → VTree → VTree → VTree
  | .cmp op, o, l, r => .cmp (l.text ++ o ++ r.text) op l r
  | .arith op, o, l, r => .arith (l.text ++ o ++ r.text) op l r
  | .conn c, o, l, r => .bin (l.text ++ o ++ r.text) c l r

/-- See `rRange`. -/
def vRange (ctx : List Frame) (t : Token) (s : RState) : VTree × Bool × RState :=
  match matchTok (· == .kTo) isNumKind s.take with
  | some (us, s1) =>
    (.to_ (t.text ++ s.head.text ++ matchText j!"<missing TO>" us ++ (rUpper ctx s1).1.2) t s.head (some (rUpper ctx s1).1), true,
      (rUpper ctx s1).2)
  | none => (.to_ (t.text ++ s.head.text ++ textOf (failAt ctx 40 s.take).1) t s.head none, false, (failAt ctx 40 s.take).2)

mutual
/-- `expression(_p)`, see `rExpr`. -/
def vExpr : Nat → Nat → List Frame → RState → Option (VTree × RState)
  | 0, _, _, _ => none
  | f + 1, p, ctx, s =>
    match vPrimary f ctx s with
    | some (t, true, s') => vLoop f p ctx t s'
    | some (t, false, s') => some (t, s')
    | none => none

/-- The first part of `expression`, see `rPrimary`. -/
def vPrimary : Nat → List Frame → RState → Option (VTree × Bool × RState)
  | 0, _, _ => none
  | f + 1, ctx, s =>
    match s.la with
    | .lparen =>
      match vExpr f 0 (.rparen :: ctx) s.take with
      | some (e, s1) =>
        match matchTok (· == .rparen) (lookAfter (.ops :: ctx)) s1 with
        | some (us, s2) => some (.paren (s.head.text ++ e.text ++ matchText j!"<missing ')'>" us) e, true, s2)
        | none => some (.paren (s.head.text ++ e.text ++ textOf (failAt ctx 28 s1).1) e, false, (failAt ctx 28 s1).2)
      | none => none
    | .kNot =>
      match vExpr f 15 (.ops :: ctx) s.take with
      | some (e, s1) => some (.not_ (s.head.text ++ e.text) e, true, s1)
      | none => none
    | .arith .sub =>
      if minusAhead ctx .operand [] s.toks.tail then
        match vExpr f 13 (.ops :: ctx) s.take with
        | some (e, s1) => some (.neg (s.head.text ++ e.text) e, true, s1)
        | none => none
      else some (.bad (textOf (failAt ctx 53 s).1), false, (failAt ctx 53 s).2)
    | .fn g =>
      match vWordlist f (.ops :: ctx) s.take with
      | some (sh, es, x, s1) => some (.func (s.head.text ++ x) g s.head.text sh es, true, s1)
      | none => none
    | .field => if isNumKind s.take.la then some (vRange ctx s.head s.take) else vField f ctx s.head s.take
    | k =>
      if isLitKind k then some (.types s.head false, true, s.take)
      else some (.types s.head true, true, s)

/-- A FIELD token not followed by a number, see `rField`. -/
def vField : Nat → List Frame → Token → RState → Option (VTree × Bool × RState)
  | 0, _, _, _ => none
  | f + 1, ctx, t, s =>
    match s.la with
    | .kIn =>
      match vWordlist f (.ops :: ctx) s.take with
      | some (sh, es, x, s1) => some (.in_ (t.text ++ s.head.text ++ x) t false sh es, true, s1)
      | none => none
    | .kNot =>
      match matchTok (· == .kIn) (· == .lparen) s.take with
      | some (us, s1) =>
        match vWordlist f (.ops :: ctx) s1 with
        | some (sh, es, x, s2) =>
          some (.in_ (t.text ++ s.head.text ++ matchText j!"<missing IN>" us ++ x) t true sh es, true, s2)
        | none => none
      | none => some (.in_ (t.text ++ s.head.text ++ textOf (failAt ctx 47 s.take).1) t true .absent [], false, (failAt ctx 47 s.take).2)
    | .cAll =>
      match vWordlist f (.ops :: ctx) s.take with
      | some (sh, es, x, s1) => some (.array (t.text ++ s.head.text ++ x) t .containsAll s.head.text sh es, true, s1)
      | none => none
    | .cAny =>
      match vWordlist f (.ops :: ctx) s.take with
      | some (sh, es, x, s1) => some (.array (t.text ++ s.head.text ++ x) t .containsAny s.head.text sh es, true, s1)
      | none => none
    | _ => some (.types t false, true, s)

/-- The operator loop of `expression(_p)`, see `rLoop`. -/
def vLoop : Nat → Nat → List Frame → VTree → RState → Option (VTree × RState)
  | 0, _, _, _, _ => none
  | f + 1, p, ctx, l, s =>
    match binTok s.la with
    | some b =>
      if p ≤ b.prec then
        match vExpr f (b.prec + 1) (.ops :: ctx) s.take with
        | some (r, s') => vLoop f p ctx (b.mkV s.head.text l r) s'
        | none => none
      else some (l, s)
    | none => some (l, s)

/-- `wordlist()`, see `rWordlist`; with the text of the context. -/
def vWordlist : Nat → List Frame → RState → Option (ListShape × List VTree × JStr × RState)
  | 0, _, _ => none
  | f + 1, ctx, s =>
    match matchTok (· == .lparen) inListKind s with
    | none =>
      let r := failAt ctx 92 s
      some (if r.1.isEmpty then .childless else .failed, [], textOf r.1, r.2)
    | some (us, s1) =>
      match syncTok inListKind s1 with
      | none => some (.failed, [], matchText j!"<missing '('>" us ++ textOf (failAt ctx 96 s1).1, (failAt ctx 96 s1).2)
      | some s2 =>
        match vExpr f 0 (.items :: ctx) s2 with
        | none => none
        | some (e, s3) =>
          match syncTok (Frame.has .items) s3 with
          | none =>
            some (.failed, [e], matchText j!"<missing '('>" us ++ syncText inListKind s1 ++ e.text ++ textOf (failAt ctx 103 s3).1,
              (failAt ctx 103 s3).2)
          | some s4 =>
            match vMore f ctx s4 with
            | none => none
            | some (sh, es, x, s5) =>
              some (sh, e :: es,
                matchText j!"<missing '('>" us ++ syncText inListKind s1 ++ e.text ++ syncText (Frame.has .items) s3 ++ x, s5)

/-- The rest of a `wordlist`, see `rMore`. -/
def vMore : Nat → List Frame → RState → Option (ListShape × List VTree × JStr × RState)
  | 0, _, _ => none
  | f + 1, ctx, s =>
    if s.la = .comma then
      match syncTok inListKind s.take with
      | none => some (.failed, [], s.head.text ++ textOf (failAt ctx 110 s.take).1, (failAt ctx 110 s.take).2)
      | some s1 =>
        match vExpr f 0 (.items :: ctx) s1 with
        | none => none
        | some (e, s2) =>
          match syncTok (Frame.has .items) s2 with
          | none =>
            some (.failed, [e], s.head.text ++ syncText inListKind s.take ++ e.text ++ textOf (failAt ctx 117 s2).1,
              (failAt ctx 117 s2).2)
          | some s3 =>
            match vMore f ctx s3 with
            | none => none
            | some (sh, es, x, s4) =>
              some (sh, e :: es,
                s.head.text ++ syncText inListKind s.take ++ e.text ++ syncText (Frame.has .items) s2 ++ x, s4)
    else
      match matchTok (· == .rparen) (lookAfter ctx) s with
      | some (us, s1) => some (.complete, [], matchText j!"<missing ')'>" us, s1)
      | none => some (.failed, [], textOf (failAt ctx 125 s).1, (failAt ctx 125 s).2)
end

/-- `parse()`, see `rParse`: the tree of the expression and the text of the whole context. -/
def vParse (ts : List Token) : Option (VTree × JStr) :=
  match vExpr (parseFuel ts) 0 [.eof] (.init ts) with
  | none => none
  | some (t, s) =>
    match matchTok (· == .eof) (fun _ => false) s with
    | some _ => some (t, t.text ++ textOf s.toks ++ j!"<EOF>")
    | none => some (t, t.text ++ textOf (failAt [] 23 s).1)

/-! ## The listener (`parser/antlr/BooleanFilterListener.java`) -/

mutual
/-- `mapContextToNode` (lines 108-220), see `mapNodeR`, with the messages and the look-ups by name. -/
def mapNodeV (loc : Locale) (df : Option JStr) : VTree → List NNode → Told (NNode × List NNode)
  | .types t e, st => do
    let n ← bare (mapTypes df t e)
    pure (.leaf n, st)
  | .func x _ name sh items, st =>
    match sh.noException with
    | .error .invalidExpression => tell .invalidExpression (expressionText x)
    | .error e => .error ⟨e, none⟩
    | .ok _ =>
      match functionIn loc name with
      | none => tell .invalidExpression (expressionText x)
      | some f => do
        let (ns, st) ← mapNodesV loc df items st
        pure (.func f ns, st)
  | .in_ _ f neg sh items, st => do
    bare sh.children
    let (ns, st) ← mapNodesV loc df items st
    pure (if neg then .not_ (.inn f.text ns) else .inn f.text ns, st)
  | .to_ _ f lo hi, st => do
    let a ← bare (convertValue lo.text (tokType lo))
    match hi with
    | none => .error ⟨.nullPointer, none⟩
    | some (u, x) =>
      let b ← bare (convertValue x (tokType u))
      pure (.range f.text a b (tokType lo) (tokType u), st)
  | .cmp _ op l r, st =>
    if useStackR (st.map NNode.erase) l.erase r.erase && l.erase.isTypes then do
      let (a, st) ← mapNodeV loc df l st
      let (b, st) ← bare (popNN st)
      pure (.cmp a b op l.erase.startType, st)
    else if useStackR (st.map NNode.erase) l.erase r.erase && r.erase.isTypes then do
      let (b, st) ← mapNodeV loc df r st
      let (a, st) ← bare (popNN st)
      pure (.cmp a b op r.erase.startType, st)
    else do
      let (b, st) ← mapNodeV loc df r st
      let (a, st) ← mapNodeV loc df l st
      pure (.cmp a b op r.erase.startType, st)
  | .arith x op l r, st =>
    if l.erase.isTypes && r.erase.isTypes then do
      let (a, st) ← mapNodeV loc df l st
      let (b, st) ← mapNodeV loc df r st
      pure (.arith op a b, st)
    else if l.erase.isTypes then do
      let (a, st) ← mapNodeV loc df l st
      let (b, st) ← bare (popNN st)
      pure (.arith op a b, st)
    else if r.erase.isTypes then do
      let (b, st) ← mapNodeV loc df r st
      let (a, st) ← bare (popNN st)
      pure (.arith op a b, st)
    else
      match st with
      | b :: a :: st => .ok (.arith op a b, st)
      | _ => tell .invalidExpression (expressionText x)
  | .paren x _, _ => tell .invalidExpression (itemText x)
  | .not_ x _, _ => tell .invalidExpression (itemText x)
  | .neg x _, _ => tell .invalidExpression (itemText x)
  | .bin x _ _ _, _ => tell .invalidExpression (itemText x)
  | .array x _ _ _ _ _, _ => tell .invalidExpression (itemText x)
  | .bad x, _ => tell .invalidExpression (itemText x)
/-- `getArrayElements` (lines 100-106), see `mapNodesR`. -/
def mapNodesV (loc : Locale) (df : Option JStr) : List VTree → List NNode → Told (List NNode × List NNode)
  | [], st => .ok ([], st)
  | t :: ts, st => do
    let (n, st) ← mapNodeV loc df t st
    let (ns, st) ← mapNodesV loc df ts st
    pure (n :: ns, st)
end

/-- See `exitMappedR`. -/
def exitMappedV (loc : Locale) (df : Option JStr) (t : VTree) (s : NState) : Told NState := do
  let (n, st) ← mapNodeV loc df t s.stack
  pure { s with stack := n :: st }

/-- `exitUnaryArithmeticExpression` (lines 63-69), see `exitNegR`. -/
def exitNegV (df : Option JStr) (e : VTree) (s : NState) : Told NState :=
  let leaf : Told NState :=
    match e with
    | .types t em => do
      let n ← bare (mapTypes df t em)
      pure { s with stack := .neg (.leaf n) :: s.stack }
    | _ => .error ⟨.classCast, none⟩
  match s.stack with
  | n :: st => if n.erase.isArithNode then .ok { s with stack := .neg n :: st } else leaf
  | [] => leaf

/-- `exitArrayExpression` (lines 77-85), see `exitArrayR` and `exitArrayN`. -/
def exitArrayV (loc : Locale) (df : Option JStr) (f : Token) (op : ArrOp) (name : JStr) (sh : ListShape) (items : List VTree)
    (s : NState) : Told NState := do
  bare sh.children
  let (ns, st) ← mapNodesV loc df items s.stack
  pure { s with stack := .array f.text op (arrayKnown loc op name) ns :: st }

/-- `exitNotExpression` (lines 278-291), see `exitNot`; `x` is the text of the context. -/
def exitNotV (x : JStr) (s : NState) : Told NState :=
  match s.stack with
  | n :: st => .ok { s with stack := .not_ n :: st }
  | [] =>
    match s.last with
    | none => tell .invalidExpression (notText x)
    | some t => do
      let v ← bare (convertValue t.text (tokType t))
      pure { s with stack := [.not_ (.unary (tokType t) v)] }

/-- `exitBinaryExpression` (lines 299-310), see `exitBin`; `x` is the text of the context. -/
def exitBinV (x : JStr) (conj : Bool) (s : NState) : Told NState :=
  match s.stack with
  | b :: a :: st => .ok { s with stack := (if conj then .and_ a b else .or_ a b) :: st }
  | _ => tell .invalidExpression (binaryText x)

mutual
/-- `ParseTreeWalker.walk`, see `walkR`. -/
def walkV (loc : Locale) (df : Option JStr) : VTree → NState → Told NState
  | .paren _ t, s => walkV loc df t s
  | .not_ x t, s => do
    let s ← walkV loc df t s
    exitNotV x s
  | .cmp x op l r, s => do
    let s ← walkV loc df l s
    let s ← walkV loc df r s
    exitMappedV loc df (.cmp x op l r) s
  | .neg _ t, s => do
    let s ← walkV loc df t s
    exitNegV df t s
  | .arith x op l r, s => do
    let s ← walkV loc df l s
    let s ← walkV loc df r s
    exitMappedV loc df (.arith x op l r) s
  | .func x f name sh items, s => do
    let s ← walkAllV loc df items s
    exitMappedV loc df (.func x f name sh items) s
  | .bin x c l r, s => do
    let s ← walkV loc df l s
    let s ← walkV loc df r s
    exitBinV x c s
  | .types t _, s => .ok { s with last := some t, count := s.count + 1 }
  | .to_ x f lo hi, s => exitMappedV loc df (.to_ x f lo hi) s
  | .in_ x f neg sh items, s => do
    let s ← walkAllV loc df items s
    exitMappedV loc df (.in_ x f neg sh items) s
  | .array _ f op name sh items, s => do
    let s ← walkAllV loc df items s
    exitArrayV loc df f op name sh items s
  | .bad _, s => .ok s
/-- See `walkAllR`. -/
def walkAllV (loc : Locale) (df : Option JStr) : List VTree → NState → Told NState
  | [], s => .ok s
  | t :: ts, s => do
    let s ← walkV loc df t s
    walkAllV loc df ts s
end

/-- `exitParse` (lines 263-276), see there; `x` is the text of the context `parse`. -/
def exitParseV (x : JStr) (s : NState) : Told NNode :=
  match s.stack with
  | n :: _ => .ok n
  | [] =>
    match s.last with
    | some t =>
      if s.count = 1 then
        if t.kind = .field then .ok (.field (some t.text))
        else do
          let v ← bare (convertValue t.text .string)
          pure (.unary .string v)
      else tell .invalidExpression (expressionText x)
    | none => tell .invalidExpression (expressionText x)

/-! ## Entry points -/

/-- `BoolParser.parseExpression(expression, defaultField)` (`parser/antlr/BoolParser.java:20-43`) on any text, under a default
locale, with the message of the cause. -/
def parseVerbatim (loc : Locale) (expr : JStr) (df : Option JStr) : Told NNode :=
  match vParse (lex expr) with
  | some (t, x) => do
    let s ← walkV loc df t ⟨[], none, 0⟩
    exitParseV x s
  | none => tell .invalidExpression []

/-- `BoolExpressionParser.parseExpression(expression, defaultField)` (`parser/antlr/BoolParser.java:19-43`) with the message
of the cause, under a default locale other than Turkish and Azeri. -/
def parseTold (expr : JStr) (df : Option JStr) : Told Node := (parseVerbatim .common expr df).map NNode.erase

/-- `BooleanExpressionEvaluator.evaluate(expression, data, defaultField)` (`application/BooleanExpressionEvaluator.java:48-55`)
on any text, with the message of the cause. -/
def evaluateTold (env : Env) (expr : JStr) (d : Data) (df : Option JStr) : Told Bool := do
  let n ← parseTold expr df
  evalBoolX env d n

/-- `ArithmeticExpressionEvaluator.evaluate(expression, data)` (`application/ArithmeticExpressionEvaluator.java:41-44`) on
any text, with the message of the cause. -/
def evaluateArithTold (env : Env) (expr : JStr) (d : Data) : Told Value := do
  let n ← parseTold expr none
  evalArithX env d n

/-- `BooleanExpressionEvaluator.evaluate(expression, data, defaultField)` (`application/BooleanExpressionEvaluator.java:48-55`)
on any text under a default locale. -/
def evaluateAnyIn (loc : Locale) (env : Env) (expr : JStr) (d : Data) (df : Option JStr) : Result Bool :=
  match parseVerbatim loc expr df with
  | .ok n => evalBoolN env d n
  | .error f => .error f.exn

/-- `ArithmeticExpressionEvaluator.evaluate(expression, data)` (`application/ArithmeticExpressionEvaluator.java:41-44`) on any
text under a default locale. -/
def evaluateArithAnyIn (loc : Locale) (env : Env) (expr : JStr) (d : Data) : Result Value :=
  match parseVerbatim loc expr none with
  | .ok n => evalArith env d n.erase
  | .error f => .error f.exn

end BoolParser
