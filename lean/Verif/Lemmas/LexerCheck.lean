import Verif.Lemmas.LexerTables
/-!
# The tables of the lexer's automaton are right
-/

namespace BoolParser


/-- The intervals a transition tests. -/
def ATrans.ivs : ATrans → List (Nat × Nat)
  | .atom n _ => [(n, n)]
  | .range lo hi _ => [(lo, hi)]
  | .set ivs _ => ivs
  | .notSet ivs _ => (0, 1114111) :: ivs
  | .wildcard _ => [(0, 1114111)]
  | _ => []

/-- Where the tests of these intervals can change their result. -/
def bounds (is : List (Nat × Nat)) : List Nat := is.flatMap (fun i => [i.1, i.2 + 1])

namespace DRow

/-- The next state of the automaton. -/
def next (r : DRow) (n : Nat) : Option Nat :=
  (r.edges.find? (fun e => decide (e.1 ≤ n) && decide (n ≤ e.2.1))).map (fun e => e.2.2)

/-- Where the tests made in a state can change their result. -/
def points (a : ATN) (r : DRow) : List Nat :=
  0 :: (bounds ((r.cfgs.flatMap (fun x => a.transitions x.state)).flatMap ATrans.ivs) ++
    bounds (r.edges.map (fun e => (e.1, e.2.1))))

end DRow

/-- The configurations of a state, if there is one. -/
def cfgsAt (rows : List DRow) : Option Nat → List Cfg
  | none => []
  | some j =>
    match rows[j]? with
    | some r => r.cfgs
    | none => []

/-- Is the configuration one of rule `i`, and if it is at its end, does it stand for the token type `i`? -/
def cfgOk (a : ATN) (i : Nat) (x : Cfg) : Bool :=
  x.alt == i && (!a.isStop x.state || (a.tokenType x == some i && a.skips x == (i == 40)))

/-- Is the row right? -/
def rowOk (a : ATN) (i : Nat) (rows : List DRow) (r : DRow) : Bool :=
  r.cfgs.any (fun _ => true) && r.cfgs.all (cfgOk a i) && (a.accepting r.cfgs).isSome == r.acc &&
  r.edges.all (fun e => decide (e.2.2 < rows.length)) &&
  (r.points a).all (fun b => a.reach r.cfgs b == some (cfgsAt rows (r.next b)))

/-- Are all rows of all rules right, counting rules from `i`? -/
def tableOk (a : ATN) : Nat → List (List DRow) → Bool
  | _, [] => true
  | i, rows :: rest => rows.all (rowOk a i rows) && tableOk a (i + 1) rest

theorem lexer_deserialize : ATN.deserialize lexerATN = some lexerAtn := by krfl

theorem lexer_start : lexerAtn.start = some (lexerDfa.map (fun rows => cfgsAt rows (some 0))).flatten := by krfl


theorem lexer_table : tableOk lexerAtn 1 lexerDfa = true := by krfl

end BoolParser
