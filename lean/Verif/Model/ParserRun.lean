import Verif.Model.LexerSim
import Verif.Model.ParserData
import Verif.Model.Parser
/-!
# The generated parser and its automaton

`BooleanExpressionParser` consists of methods that follow the grammar and of an automaton, stored as a string
(`parser/antlr/BooleanExpressionParser.java:1282-1374`). Wherever the grammar leaves a choice, a method asks
`getInterpreter().adaptivePredict(_input, decision, _ctx)` (or, where one token decides, looks at `_input.LA(1)`).
`Model/Parser.lean` has these choices built in. Here they are taken from the automaton: the methods are written as
rules (`GExpr` and so on), the choices are predictions over the decoded automaton (`Predicts`).

The simulator of the ANTLR runtime is not in the repository. What is modelled is its specification: it predicts the
alternative with the lowest number through which the rest of the input can be parsed in the current context. (It may
stop reading once one alternative is left and so also predict on inputs that cannot be parsed; such inputs are the
subject of `Model/Recovery.lean`.) The
precedence predicates of an alternative count only in the method that asks and before a token is read
(`ParserATNSimulator.precedenceTransition`: `collectPredicates && inContext`); elsewhere they are taken as true.
-/

namespace BoolParser

/-- The token type of a kind (`parser/antlr/BooleanExpressionParser.java:19-27`), the inverse of `tokenKind`; EOF is
represented by 0 as in `ATN.edge`. -/
def kindToken : TK → Nat
  | .eof => 0 | .comma => 1 | .kIn => 2 | .kTo => 3 | .kAnd => 4 | .kOr => 5 | .kNot => 6
  | .kTrue => 7 | .kFalse => 8 | .cAll => 9 | .cAny => 10
  | .fn .min => 11 | .fn .max => 12 | .fn .avg => 13 | .fn .sum => 14 | .fn .mean => 15 | .fn .mode => 16
  | .fn .median => 17 | .fn .len => 18 | .fn .int => 19 | .fn .daysElapsed => 20
  | .arith .add => 21 | .arith .sub => 22 | .arith .mul => 23 | .arith .div => 24 | .arith .mod => 25 | .arith .exp => 26
  | .cmp .ne => 27 | .cmp .gt => 28 | .cmp .ge => 29 | .cmp .lt => 30 | .cmp .le => 31 | .cmp .eq => 32
  | .lparen => 33 | .rparen => 34 | .decimal => 35 | .version => 36 | .integer => 37 | .date => 38 | .datetime => 39
  | .word => 41 | .field => 44

/-- `Derives a p s w`: reading the token types `w`, the automaton gets from the state `s` to the end of the rule that
`s` belongs to. `p`: the precedence that predicates are tested against, or nothing if they are taken as true. -/
inductive Derives (a : ATN) : Option Nat → Nat → List Nat → Prop
  | stop {p s} : a.isStop s = true → Derives a p s []
  | eps {p s t w} : .eps t ∈ a.transitions s → Derives a p t w → Derives a p s w
  | action {p s i t w} : .action i t ∈ a.transitions s → Derives a p t w → Derives a p s w
  | prec {p s q t w} : .prec q t ∈ a.transitions s → (∀ x, p = some x → x ≤ q) → Derives a p t w → Derives a p s w
  | read {p s tr k t w} : tr ∈ a.transitions s → tr.target k = some t → Derives a none t w → Derives a p s (k :: w)
  | call {p s st fo q x y} : .rule st fo q ∈ a.transitions s → Derives a none st x →
      Derives a (if x = [] then p else none) fo y → Derives a p s (x ++ y)

/-- The states to return to, innermost first, and the token types that complete all of them. -/
inductive Returns (a : ATN) : List Nat → List Nat → Prop
  | nil : Returns a [] []
  | cons {s σ x y} : Derives a none s x → Returns a σ y → Returns a (s :: σ) (x ++ y)

/-- The rest `w` of the input can be parsed from the state `s` with the return states `σ`. -/
def Viable (a : ATN) (p : Option Nat) (s : Nat) (σ : List Nat) (w : List Nat) : Prop :=
  ∃ x y, w = x ++ y ∧ Derives a p s x ∧ Returns a σ y

/-- The state that alternative `i` (counted from 1) of the decision at state `d` leads to. -/
def ATN.alternative (a : ATN) (d i : Nat) : Option Nat :=
  match i with
  | 0 => none
  | j + 1 =>
    match (a.transitions d)[j]? with
    | some (.eps t) => some t
    | _ => none

/-- `adaptivePredict`: alternative `i` is the first through which the rest of the input can be parsed. -/
def Predicts (a : ATN) (d : Nat) (p : Option Nat) (σ w : List Nat) (i : Nat) : Prop :=
  (∃ t, a.alternative d i = some t ∧ Viable a p t σ w) ∧
  ∀ j, j < i → ∀ t, a.alternative d j = some t → ¬ Viable a p t σ w

/-- The rest of the input as token types. -/
def tokenTypes (ts : List Token) : List Nat := ts.map (fun t => kindToken t.kind) ++ [0]

/-- The tokens of `types` that each of its first eight alternatives takes (`BooleanExpressionParser.java:1080-1144`). -/
def typesAlts : List (Nat × TK) :=
  [(1, .integer), (2, .decimal), (3, .version), (4, .kTrue), (4, .kFalse), (5, .word), (6, .field), (7, .date),
   (8, .datetime)]

/-- `types()` (`BooleanExpressionParser.java:1074-1162`): the first token of the context, whether it is empty, and what
is left. -/
inductive GTypes (a : ATN) (σ : List Nat) : List Token → Tree → List Token → Prop
  | tok {t ts i} : (i, t.kind) ∈ typesAlts → Predicts a 140 none σ (tokenTypes (t :: ts)) i →
      GTypes a σ (t :: ts) (.types t false) ts
  | empty {ts} : Predicts a 140 none σ (tokenTypes ts) 9 →
      GTypes a σ ts (.types (ts.head?.getD eofTok) true) ts

/-- The arithmetic alternatives of the operator loop: number, precedence, operator (lines 548-625). -/
def arithAlts : List (Nat × Nat × ArithOp) :=
  [(2, 12, .exp), (3, 11, .div), (4, 10, .mul), (5, 9, .mod), (6, 8, .add), (7, 7, .sub)]

mutual
/-- `expression(_p)` (lines 396-665) without syntax errors. `σ`: the states to return to (the invoking states of
`_ctx`). -/
inductive GExpr (a : ATN) : Nat → List Nat → List Token → Tree → List Token → Prop
  | mk {p σ ts t r u r'} : GPrimary a p σ ts t r → GLoop a p σ t r u r' → GExpr a p σ ts u r'

/-- The first `switch` of `expression` (lines 409-526). -/
inductive GPrimary (a : ATN) : Nat → List Nat → List Token → Tree → List Token → Prop
  | paren {p σ l ts e c r} : Predicts a 53 (some p) σ (tokenTypes (l :: ts)) 1 → l.kind = .lparen →
      GExpr a 0 (28 :: σ) ts e (c :: r) → c.kind = .rparen → GPrimary a p σ (l :: ts) (.paren e) r
  | not_ {p σ l ts e r} : Predicts a 53 (some p) σ (tokenTypes (l :: ts)) 2 → l.kind = .kNot →
      GExpr a 15 (54 :: σ) ts e r → GPrimary a p σ (l :: ts) (.not_ e) r
  | neg {p σ l ts e r} : Predicts a 53 (some p) σ (tokenTypes (l :: ts)) 3 → l.kind = .arith .sub →
      GExpr a 13 (54 :: σ) ts e r → GPrimary a p σ (l :: ts) (.neg e) r
  | func {p σ l g ts es r} : Predicts a 53 (some p) σ (tokenTypes (l :: ts)) 4 → l.kind = .fn g →
      GWordlist a (36 :: σ) ts es r → GPrimary a p σ (l :: ts) (.func g es) r
  | types {p σ ts t r} : Predicts a 53 (some p) σ (tokenTypes ts) 5 →
      GTypes a (54 :: σ) ts t r → GPrimary a p σ ts t r
  | to_ {p σ f lo k hi r} : Predicts a 53 (some p) σ (tokenTypes (f :: lo :: k :: hi :: r)) 6 → f.kind = .field →
      isNumKind lo.kind = true → k.kind = .kTo → isNumKind hi.kind = true →
      GPrimary a p σ (f :: lo :: k :: hi :: r) (.to_ f lo hi) r
  | in_ {p σ f i ts es r} : Predicts a 53 (some p) σ (tokenTypes (f :: i :: ts)) 7 → f.kind = .field →
      i.kind = .kIn → GWordlist a (54 :: σ) ts es r → GPrimary a p σ (f :: i :: ts) (.in_ f false es) r
  | notIn {p σ f n i ts es r} : Predicts a 53 (some p) σ (tokenTypes (f :: n :: i :: ts)) 7 → f.kind = .field →
      n.kind = .kNot → i.kind = .kIn → GWordlist a (54 :: σ) ts es r →
      GPrimary a p σ (f :: n :: i :: ts) (.in_ f true es) r
  | all {p σ f o ts es r} : Predicts a 53 (some p) σ (tokenTypes (f :: o :: ts)) 8 → f.kind = .field →
      o.kind = .cAll → GWordlist a (52 :: σ) ts es r → GPrimary a p σ (f :: o :: ts) (.array f .containsAll es) r
  | any {p σ f o ts es r} : Predicts a 53 (some p) σ (tokenTypes (f :: o :: ts)) 8 → f.kind = .field →
      o.kind = .cAny → GWordlist a (52 :: σ) ts es r → GPrimary a p σ (f :: o :: ts) (.array f .containsAny es) r

/-- The operator loop of `expression` (lines 527-651): the expression so far, what is left, the outcome. -/
inductive GLoop (a : ATN) : Nat → List Nat → Tree → List Token → Tree → List Token → Prop
  | done {p σ l ts} : Predicts a 83 (some p) σ (tokenTypes ts) 2 → GLoop a p σ l ts l ts
  | cmp {p σ l o op ts r ts' u r'} : Predicts a 83 (some p) σ (tokenTypes (o :: ts)) 1 →
      Predicts a 81 (some p) σ (tokenTypes (o :: ts)) 1 → p ≤ 14 → o.kind = .cmp op →
      GExpr a 15 (58 :: σ) ts r ts' → GLoop a p σ (.cmp op l r) ts' u r' → GLoop a p σ l (o :: ts) u r'
  | arith {p σ l o i q op ts r ts' u r'} : Predicts a 83 (some p) σ (tokenTypes (o :: ts)) 1 →
      Predicts a 81 (some p) σ (tokenTypes (o :: ts)) i → (i, q, op) ∈ arithAlts → p ≤ q → o.kind = .arith op →
      GExpr a (q + 1) (82 :: σ) ts r ts' → GLoop a p σ (.arith op l r) ts' u r' → GLoop a p σ l (o :: ts) u r'
  | and {p σ l o ts r ts' u r'} : Predicts a 83 (some p) σ (tokenTypes (o :: ts)) 1 →
      Predicts a 81 (some p) σ (tokenTypes (o :: ts)) 8 → p ≤ 5 → o.kind = .kAnd →
      GExpr a 6 (80 :: σ) ts r ts' → GLoop a p σ (.bin true l r) ts' u r' → GLoop a p σ l (o :: ts) u r'
  | or {p σ l o ts r ts' u r'} : Predicts a 83 (some p) σ (tokenTypes (o :: ts)) 1 →
      Predicts a 81 (some p) σ (tokenTypes (o :: ts)) 8 → p ≤ 5 → o.kind = .kOr →
      GExpr a 6 (80 :: σ) ts r ts' → GLoop a p σ (.bin false l r) ts' u r' → GLoop a p σ l (o :: ts) u r'

/-- `wordlist()` (lines 851-952). No token has the type WS, so its `while` loops are left at once. -/
inductive GWordlist (a : ATN) : List Nat → List Token → List Tree → List Token → Prop
  | mk {σ l ts e r es r'} : l.kind = .lparen → Predicts a 96 none σ (tokenTypes ts) 2 →
      GExpr a 0 (103 :: σ) ts e r → GMore a σ r es r' → GWordlist a σ (l :: ts) (e :: es) r'

/-- The loop of `wordlist` (lines 884-940) and the closing parenthesis. -/
inductive GMore (a : ATN) : List Nat → List Token → List Tree → List Token → Prop
  | done {σ c r} : c.kind = .rparen → GMore a σ (c :: r) [] r
  | more {σ c ts e r es r'} : c.kind = .comma → Predicts a 110 none σ (tokenTypes ts) 2 →
      GExpr a 0 (117 :: σ) ts e r → GMore a σ r es r' → GMore a σ (c :: ts) (e :: es) r'
end

/-- `parse()` (lines 129-152): an expression, then EOF. -/
def GParse (a : ATN) (ts : List Token) (t : Tree) : Prop := GExpr a 0 [23] ts t []

/-- `ATN.nextTokens(state)` of the ANTLR runtime, used by its error recovery: the kinds with which what is read from the state `s` to the end of its rule can begin. -/
def NextTok (a : ATN) (s : Nat) (k : TK) : Prop := ∃ ks : List TK, Derives a none s ((k :: ks).map kindToken)

/-- The automaton in the generated parser (`BooleanExpressionParser.java:1282-1374`). -/
def compiledParser : Option ATN := ATN.deserialize parserATN

end BoolParser
