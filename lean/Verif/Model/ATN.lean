import Verif.Model.Base
/-!
# ANTLR automata

The format in which ANTLR 4.10 and later stores the automaton of a lexer or parser in the generated class. The
generated classes of this repository hold it as a string and hand it to
`new ATNDeserializer().deserialize(_serializedATN.toCharArray())`
(`parser/antlr/BooleanExpressionLexer.java:418-419`). The deserializer is part of the ANTLR runtime, which is not in
the repository; it is modelled here from its published behaviour.
-/

namespace BoolParser

/-- A transition. `rule start follow` calls the rule starting at `start` and goes on at `follow`. -/
inductive ATrans where
  | eps (t : Nat)
  | range (lo hi t : Nat)
  | rule (start follow prec : Nat)
  | pred (t : Nat)
  | atom (c t : Nat)
  | action (index t : Nat)
  | set (ivs : List (Nat × Nat)) (t : Nat)
  | notSet (ivs : List (Nat × Nat)) (t : Nat)
  | wildcard (t : Nat)
  | prec (p t : Nat)
deriving DecidableEq, Repr

/-- State types (`ATNState`): 1 basic, 2 rule start, 3 block start, 4 plus block start, 5 star block start, 6 token
start, 7 rule stop, 8 block end, 9 star loop back, 10 star loop entry, 11 plus loop back, 12 loop end. -/
structure AState where
  type : Nat
  rule : Int
deriving DecidableEq, Repr

/-- An automaton. `rules`: start state and token type of each rule (token type 0 in parsers). -/
structure ATN where
  grammarType : Nat
  maxTokenType : Nat
  states : List AState
  nonGreedy : List Nat
  precedence : List Nat
  rules : List (Nat × Nat)
  modes : List Nat
  edges : List (Nat × ATrans)
  decisions : List Nat
  actions : List (Nat × Nat × Nat)
deriving DecidableEq, Repr

namespace ATN

/-- `ATNDeserializer.decodeIntsEncodedAs16BitWords`: a word with the top bit set makes a number with the next word;
two words 0xFFFF are -1. -/
def words : List Nat → List Int
  | [] => []
  | v :: r =>
    if v < 32768 then (v : Int) :: words r
    else match r with
      | [] => []
      | w :: r' => (if v = 65535 ∧ w = 65535 then -1 else ((v - 32768) * 65536 + w : Int)) :: words r'

/-- A reader of the data: what was read and the rest. -/
abbrev Reader (α : Type) := List Int → Option (α × List Int)

/-- One number. -/
def num : Reader Nat
  | [] => none
  | n :: r => some (n.toNat, r)

/-- `n` items. -/
def many {α : Type} (f : Reader α) : Nat → Reader (List α)
  | 0, s => some ([], s)
  | n + 1, s =>
    match f s with
    | none => none
    | some (a, s) =>
      match many f n s with
      | none => none
      | some (as, s) => some (a :: as, s)

/-- A number of items, then the items. -/
def counted {α : Type} (f : Reader α) : Reader (List α) := fun s =>
  match num s with
  | none => none
  | some (n, s) => many f n s

/-- A state: type and rule; loop ends and block starts name another state. -/
def state : Reader AState
  | t :: r :: s =>
    if t = 12 ∨ t = 3 ∨ t = 4 ∨ t = 5 then
      match s with
      | [] => none
      | _ :: s => some (⟨t.toNat, r⟩, s)
    else some (⟨t.toNat, r⟩, s)
  | _ => none

/-- Two numbers. -/
def pair : Reader (Nat × Nat)
  | a :: b :: s => some ((a.toNat, b.toNat), s)
  | _ => none

/-- A set of characters: the number of intervals, whether it contains EOF (none does here), the intervals. -/
def charSet : Reader (List (Nat × Nat))
  | n :: 0 :: s => many pair n.toNat s
  | _ => none

/-- An edge: source, target, type, three arguments (`ATNDeserializer.edgeFactory`). The ranges and atoms of this
repository's automata do not involve EOF except in the parser, where EOF is written as an atom with third argument 1;
its label is represented by 0. -/
def edge (sets : List (List (Nat × Nat))) : Reader (Nat × ATrans)
  | src :: trg :: type :: a :: b :: c :: s =>
    let t := trg.toNat
    let tr : Option ATrans :=
      match type.toNat with
      | 1 => some (.eps t)
      | 2 => some (.range (if c = 0 then a.toNat else 0) b.toNat t)
      | 3 => some (.rule a.toNat t c.toNat)
      | 4 => some (.pred t)
      | 5 => some (.atom (if c = 0 then a.toNat else 0) t)
      | 6 => some (.action b.toNat t)
      | 7 => some (.set (sets.getD a.toNat []) t)
      | 8 => some (.notSet (sets.getD a.toNat []) t)
      | 9 => some (.wildcard t)
      | 10 => some (.prec a.toNat t)
      | _ => none
    match tr with
    | none => none
    | some tr => some ((src.toNat, tr), s)
  | _ => none

/-- A lexer action: type and two arguments. -/
def triple : Reader (Nat × Nat × Nat)
  | a :: b :: c :: s => some ((a.toNat, b.toNat, c.toNat), s)
  | _ => none

/-- A rule of a lexer: start state and token type; of a parser: start state. -/
def ruleEntry (lexer : Bool) : Reader (Nat × Nat) := fun s =>
  if lexer then pair s
  else match num s with
    | none => none
    | some (n, s) => some ((n, 0), s)

/-- `ATNDeserializer.deserialize`. Version 4; everything must be read. The transitions that the deserializer adds out
of rule stop states are not represented: the lexer simulator returns to the calling rule by its own stack. -/
def deserialize (data : List Nat) : Option ATN :=
  match words data with
  | 4 :: g :: mt :: s => do
    let lexer := decide (g = 0)
    let (states, s) ← counted state s
    let (ng, s) ← counted num s
    let (pr, s) ← counted num s
    let (rules, s) ← counted (ruleEntry lexer) s
    let (modes, s) ← counted num s
    let (sets, s) ← counted charSet s
    let (edges, s) ← counted (edge sets) s
    let (dec, s) ← counted num s
    let (acts, s) ← if lexer then counted triple s else some ([], s)
    if s = [] then some ⟨g.toNat, mt.toNat, states, ng, pr, rules, modes, edges, dec, acts⟩ else none
  | _ => none

end ATN
end BoolParser
