import Verif.Model.ATN
import Verif.Model.LexerData
import Verif.Model.Lexer
/-!
# Running the lexer's automaton

`LexerATNSimulator` of the ANTLR runtime (4.13), which the generated lexer hands its automaton to
(`parser/antlr/BooleanExpressionLexer.java:86`). The runtime is not in the repository; it is modelled here from its
published behaviour. The cache of automaton states it keeps does not change results and is left out.
-/

namespace BoolParser

/-- `LexerATNConfig`: a state, the rule being tried (counted from 1), the states to return to after rule calls,
whether a non-greedy decision was passed, and the actions collected. -/
structure Cfg where
  state : Nat
  alt : Nat
  ctx : List Nat
  ng : Bool
  acts : List Nat
deriving DecidableEq, Repr

namespace ATN

/-- The transitions out of a state, in order. -/
def transitions (a : ATN) (s : Nat) : List ATrans := (a.edges.filter (fun e => e.1 == s)).map Prod.snd

/-- Is it the end of a rule? -/
def isStop (a : ATN) (s : Nat) : Bool :=
  match a.states[s]? with
  | some q => q.type == 7
  | none => false

/-- The state of a configuration moved to `t` (`LexerATNConfig.checkNonGreedyDecision`). -/
def goto (a : ATN) (x : Cfg) (t : Nat) : Cfg := { x with state := t, ng := x.ng || a.nonGreedy.contains t }

end ATN

/-- Transitions that read no character. -/
def ATrans.isEps : ATrans → Bool
  | .eps _ => true
  | .rule _ _ _ => true
  | .pred _ => true
  | .action _ _ => true
  | .prec _ _ => true
  | _ => false

/-- In one of the intervals? -/
def inIvs (ivs : List (Nat × Nat)) (n : Nat) : Bool := ivs.any (fun i => decide (i.1 ≤ n) && decide (n ≤ i.2))

/-- `getReachableTarget`: where a transition leads when reading the character with code point `c`.
Any character (`wildcard`) has a code point up to `Lexer.MAX_CHAR_VALUE`. -/
def ATrans.target (c : Nat) : ATrans → Option Nat
  | .atom n t => if c = n then some t else none
  | .range lo hi t => if lo ≤ c ∧ c ≤ hi then some t else none
  | .set ivs t => if inIvs ivs c then some t else none
  | .notSet ivs t => if c ≤ 1114111 ∧ inIvs ivs c = false then some t else none
  | .wildcard t => if c ≤ 1114111 then some t else none
  | _ => none

namespace ATN

/-- `getEpsilonTarget`. Actions count in the rule being tried only, not in rules it calls. -/
def epsTarget (a : ATN) (x : Cfg) : ATrans → Option Cfg
  | .eps t => some (a.goto x t)
  | .rule st follow _ => some (a.goto { x with ctx := follow :: x.ctx } st)
  | .action i t => if x.ctx = [] then some (a.goto { x with acts := x.acts ++ [i] } t) else some (a.goto x t)
  | .pred t => some (a.goto x t)
  | .prec _ t => some (a.goto x t)
  | _ => none

/-- The loop over the transitions in `closure`. -/
def eachEps (a : ATN) (rec : Cfg → Bool → Option (List Cfg × Bool)) (x : Cfg) : Bool → List ATrans → Option (List Cfg × Bool)
  | flag, [] => some ([], flag)
  | flag, t :: ts =>
    match a.epsTarget x t with
    | none => eachEps a rec x flag ts
    | some y =>
      match rec y flag with
      | none => none
      | some (l, flag) =>
        match eachEps a rec x flag ts with
        | none => none
        | some (l', flag) => some (l ++ l', flag)

/-- `closure(input, config, configs, currentAltReachedAcceptState, …)`: the configurations it adds, in order, and its
result. The first argument is fuel; running out of it is `none`. -/
def closure (a : ATN) : Nat → Cfg → Bool → Option (List Cfg × Bool)
  | 0, _, _ => none
  | f + 1, x, flag =>
    if a.isStop x.state then
      match x.ctx with
      | [] => some ([x], true)
      | q :: ctx => closure a f (a.goto { x with ctx := ctx } q) flag
    else
      let ts := a.transitions x.state
      let added := if (ts ≠ [] ∧ ts.all ATrans.isEps) ∨ (flag ∧ x.ng) then [] else [x]
      match eachEps a (closure a f) x flag ts with
      | none => none
      | some (l, flag) => some (added ++ l, flag)

/-- Fuel for `closure`: longer than any path of transitions that read nothing. -/
def depth : Nat := 100

/-- An ordered set keeps what is added first. -/
def keepFirst : List Cfg → List Cfg
  | [] => []
  | x :: xs => x :: (keepFirst xs).filter (fun y => y ≠ x)

/-- The inner loop of `getReachableConfigSet`: the transitions of one configuration, until one reaches the end of its
rule. -/
def follow (a : ATN) (c : Nat) (x : Cfg) (flag : Bool) : List ATrans → Option (List Cfg × Bool)
  | [] => some ([], false)
  | t :: ts =>
    match t.target c with
    | none => follow a c x flag ts
    | some q =>
      match a.closure depth (a.goto x q) flag with
      | none => none
      | some (l, true) => some (l, true)
      | some (l, false) =>
        match follow a c x flag ts with
        | none => none
        | some (l', b) => some (l ++ l', b)

/-- The outer loop of `getReachableConfigSet`; `skip` is the rule that has reached its end. -/
def reachGo (a : ATN) (c : Nat) : Option Nat → List Cfg → Option (List Cfg)
  | _, [] => some []
  | skip, x :: xs =>
    let flag := skip == some x.alt
    if flag && x.ng then reachGo a c skip xs
    else
      match follow a c x flag (a.transitions x.state) with
      | none => none
      | some (l, hit) =>
        match reachGo a c (if hit then some x.alt else skip) xs with
        | none => none
        | some l' => some (l ++ l')

/-- `getReachableConfigSet`: the configurations after reading `c`. -/
def reach (a : ATN) (xs : List Cfg) (c : Nat) : Option (List Cfg) := (reachGo a c none xs).map keepFirst

/-- `computeStartState`: one alternative for each transition of the mode's start state. -/
def startGo (a : ATN) : Nat → List ATrans → Option (List Cfg)
  | _, [] => some []
  | i, .eps t :: ts =>
    match a.closure depth ⟨t, i, [], false, []⟩ false, startGo a (i + 1) ts with
    | some (l, _), some l' => some (l ++ l')
    | _, _ => none
  | _, _ => none

/-- The configurations before the first character. -/
def start (a : ATN) : Option (List Cfg) :=
  match a.modes with
  | m :: _ => (startGo a 1 (a.transitions m)).map keepFirst
  | [] => none

/-- The configuration that makes a set of configurations accept: the first at the end of its rule. -/
def accepting (a : ATN) (xs : List Cfg) : Option Cfg := xs.find? (fun x => a.isStop x.state)

/-- `execATN`: read while there are configurations, remember the last set that accepts. Result: the characters read,
and the accepting configuration with the characters read up to it. At the end of input nothing can be read (no
transition of the automaton is labelled with EOF). -/
def exec (a : ATN) : List Cfg → Nat → Option (Nat × Cfg) → JStr → Option (Nat × Option (Nat × Cfg))
  | _, n, best, [] => some (n, best)
  | xs, n, best, c :: r =>
    match a.reach xs c.toNat with
    | none => none
    | some [] => some (n, best)
    | some (y :: ys) =>
      exec a (y :: ys) (n + 1) (match a.accepting (y :: ys) with
        | some z => some (n + 1, z)
        | none => best) r

/-- The token type of a configuration at the end of a rule. -/
def tokenType (a : ATN) (x : Cfg) : Option Nat := do
  let q ← a.states[x.state]?
  let r ← a.rules[q.rule.toNat]?
  return r.2

/-- Does a configuration carry the action `skip` (type 6)? -/
def skips (a : ATN) (x : Cfg) : Bool :=
  x.acts.any (fun i => match a.actions[i]? with | some t => t.1 == 6 | none => false)

end ATN

/-- The token types of the generated lexer (`parser/antlr/BooleanExpressionLexer.java:19-26`) as the kinds of tokens
the parser distinguishes. `SQSTR`, `DQSTR`, `ALPHANUMERIC`, `SQ`, `DQ` (42, 43, 45, 46, 47) are not used by the
grammar of the parser. -/
def tokenKind : Nat → Option TK
  | 1 => some .comma | 2 => some .kIn | 3 => some .kTo | 4 => some .kAnd | 5 => some .kOr | 6 => some .kNot
  | 7 => some .kTrue | 8 => some .kFalse | 9 => some .cAll | 10 => some .cAny
  | 11 => some (.fn .min) | 12 => some (.fn .max) | 13 => some (.fn .avg) | 14 => some (.fn .sum)
  | 15 => some (.fn .mean) | 16 => some (.fn .mode) | 17 => some (.fn .median) | 18 => some (.fn .len)
  | 19 => some (.fn .int) | 20 => some (.fn .daysElapsed)
  | 21 => some (.arith .add) | 22 => some (.arith .sub) | 23 => some (.arith .mul) | 24 => some (.arith .div)
  | 25 => some (.arith .mod) | 26 => some (.arith .exp)
  | 27 => some (.cmp .ne) | 28 => some (.cmp .gt) | 29 => some (.cmp .ge) | 30 => some (.cmp .lt)
  | 31 => some (.cmp .le) | 32 => some (.cmp .eq) | 33 => some .lparen | 34 => some .rparen
  | 35 => some .decimal | 36 => some .version | 37 => some .integer | 38 => some .date | 39 => some .datetime
  | 41 => some .word | 44 => some .field
  | _ => none

/-- One round of `Lexer.nextToken` on non-empty input: the next piece and its length. A token whose rule has the
action `skip` is dropped. Where nothing is accepted the characters read are dropped (`LexerNoViableAltException`) and
with them the next one, if there is one (`Lexer.recover`). -/
def ATN.nextPiece (a : ATN) (s : JStr) : Option (LexItem × Nat) := do
  let xs ← a.start
  let (n, best) ← a.exec xs 0 ((a.accepting xs).map (fun x => (0, x))) s
  match best with
  | some (m, x) =>
    if a.skips x then return (.ws (s.take m), m)
    else do
      let k ← tokenKind (← a.tokenType x)
      return (.tok ⟨k, s.take m⟩, m)
  | none =>
    let m := if n < s.length then n + 1 else n
    return (.junk (s.take m), m)

/-- The pieces of the input, one after the other; the first argument is fuel. -/
def ATN.piecesGo (a : ATN) : Nat → JStr → Option (List LexItem)
  | 0, [] => some []
  | 0, _ => none
  | f + 1, s =>
    match s with
    | [] => some []
    | c :: r => do
      let (i, n) ← a.nextPiece (c :: r)
      let is ← a.piecesGo f ((c :: r).drop n)
      return i :: is

/-- The generated lexer: its automaton, run on the input. -/
def compiledLexer (s : JStr) : Option (List LexItem) := do
  let a ← ATN.deserialize lexerATN
  a.piecesGo s.length s

/-- The tokens the generated lexer hands to the parser (`CommonTokenStream`, without the final EOF token). -/
def compiledTokens (s : JStr) : Option (List Token) := (compiledLexer s).map (List.filterMap LexItem.tok?)

end BoolParser
