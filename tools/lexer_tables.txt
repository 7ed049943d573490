-- Writes Verif/Lemmas/LexerTables.lean. Run: cp to x.lean, `lake env lean x.lean > Verif/Lemmas/LexerTables.lean`.
import Verif.Model.LexerSim
open BoolParser
abbrev Row := List Cfg × Bool × List (Nat × Nat × Nat)
def ivsOf : ATrans → List (Nat × Nat)
  | .atom n _ => [(n,n)] | .range l h _ => [(l,h)] | .set i _ => i | .notSet i _ => i | _ => []
def bpsOf (a : ATN) (xs : List Cfg) : List Nat :=
  let is := (xs.flatMap (fun x => a.transitions x.state)).flatMap ivsOf
  (0 :: is.flatMap (fun i => [i.1, i.2+1])).mergeSort.eraseDups
-- explore
partial def explore (a : ATN) (todo : List (List Cfg)) (done : Array (List Cfg × List (Nat × Nat × List Cfg))) : Array (List Cfg × List (Nat × Nat × List Cfg)) :=
  match todo with
  | [] => done
  | xs :: ts =>
    if done.any (fun r => r.1 == xs) then explore a ts done else
    let bs := bpsOf a xs
    let es := (bs.zip (bs.drop 1 ++ [1114112])).filterMap (fun (lo,nx) =>
      match a.reach xs lo with
      | some [] => none
      | some ys => some (lo, nx-1, ys)
      | none => none)
    explore a (ts ++ es.map (fun e => e.2.2)) (done.push (xs, es))
def idx (d : Array (List Cfg × List (Nat × Nat × List Cfg))) (xs : List Cfg) : Nat := (d.findIdx? (fun r => r.1 == xs)).getD 999
def rows (a : ATN) (xs : List Cfg) : List Row :=
  let d := explore a [xs] #[]
  d.toList.map (fun r => (r.1, (a.accepting r.1).isSome, r.2.map (fun e => (e.1, e.2.1, idx d e.2.2))))
def all : List (Nat × List Row) := 
  match ATN.deserialize lexerATN with
  | none => []
  | some a => match a.start with
    | none => []
    | some st => (List.range 47).map (fun i => (i+1, rows a (st.filter (fun x => x.alt == i+1))))
def pc (x : Cfg) : String := s!"⟨{x.state},{x.alt},{x.ctx},{x.ng},{x.acts}⟩"
def pe (e : Nat × Nat × Nat) : String := s!"({e.1},{e.2.1},{e.2.2})"
def plist (l : List String) : String := "[" ++ String.intercalate ", " l ++ "]"
def prow (r : Row) : String := "⟨" ++ plist (r.1.map pc) ++ ", " ++ toString r.2.1 ++ ", " ++ plist (r.2.2.map pe) ++ "⟩"
def piv (i : Nat × Nat) : String := s!"({i.1},{i.2})"
def pt : ATrans → String
  | .eps t => s!".eps {t}" | .range l h t => s!".range {l} {h} {t}" | .rule s f p => s!".rule {s} {f} {p}"
  | .pred t => s!".pred {t}" | .atom c t => s!".atom {c} {t}" | .action i t => s!".action {i} {t}"
  | .set i t => s!".set {plist (i.map piv)} {t}" | .notSet i t => s!".notSet {plist (i.map piv)} {t}"
  | .wildcard t => s!".wildcard {t}" | .prec p t => s!".prec {p} {t}"
def pst (s : AState) : String := s!"⟨{s.type},{s.rule}⟩"
def ped (e : Nat × ATrans) : String := s!"({e.1}, {pt e.2})"
def pnm (r : Nat × List Row) : String := s!"dfa{r.1}"
def wrap (l : List String) (n : Nat) : String := Id.run do
  let mut out := ""
  let mut k := 0
  for x in l do
    out := out ++ (if k == 0 then "" else if k % n == 0 then ",\n    " else ", ") ++ x
    k := k + 1
  return out
#eval do
  let some a := ATN.deserialize lexerATN | return
  IO.println "import Verif.Model.LexerSim\nimport Verif.Util.KRfl\n/-!\n# The lexer's automaton, written out\n\nGenerated by `tools/lexer_tables.txt` from the model; nothing here is trusted: `Verif/Lemmas/LexerCheck.lean` checks it\nagainst the model.\n-/\n\nnamespace BoolParser\n"
  IO.println "/-- A state of the deterministic automaton of one lexer rule: the configurations, whether the rule may end here, and\nwhere to go on reading a character of an interval. -/\nstructure DRow where\n  cfgs : List Cfg\n  acc : Bool\n  edges : List (Nat × Nat × Nat)\nderiving DecidableEq\n"
  IO.println s!"/-- The automaton in the generated lexer. -/\ndef lexerAtn : ATN where\n  grammarType := {a.grammarType}\n  maxTokenType := {a.maxTokenType}\n  nonGreedy := {a.nonGreedy}\n  precedence := {a.precedence}\n  modes := {a.modes}\n  rules := [\n    {wrap (a.rules.map piv) 12}]\n  actions := {a.actions}\n  decisions := {a.decisions}\n  states := [\n    {wrap (a.states.map pst) 14}]\n  edges := [\n    {wrap (a.edges.map ped) 5}]\n"
  for r in all do
    IO.println s!"/-- Rule {r.1}. -/\ndef dfa{r.1} : List DRow := [\n    {wrap (r.2.map prow) 1}]\n"
  IO.println s!"/-- One automaton for each rule. -/\ndef lexerDfa : List (List DRow) := [\n    {wrap (all.map pnm) 8}]\n"
  IO.println "end BoolParser"
