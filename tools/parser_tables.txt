-- Writes Verif/Lemmas/ParserTables.lean. Run: cp to x.lean, `lake env lean x.lean > Verif/Lemmas/ParserTables.lean`.
import Verif.Model.ParserRun
open BoolParser
def showT : ATrans → String
  | .eps t => s!".eps {t}"
  | .range a b t => s!".range {a} {b} {t}"
  | .rule a b c => s!".rule {a} {b} {c}"
  | .pred t => s!".pred {t}"
  | .atom a b => s!".atom {a} {b}"
  | .action a b => s!".action {a} {b}"
  | .set l t => s!".set {l} {t}"
  | .notSet l t => s!".notSet {l} {t}"
  | .wildcard t => s!".wildcard {t}"
  | .prec a b => s!".prec {a} {b}"
def chunk (n : Nat) (l : List String) : String :=
  ",\n    ".intercalate ((List.range ((l.length + n - 1) / n)).map fun i => ", ".intercalate ((l.drop (i*n)).take n))
#eval show IO Unit from do
  let some a := compiledParser | return
  IO.println "import Verif.Model.ParserRun\nimport Verif.Util.KRfl\n/-!\n# The parser's automaton, written out\n\nGenerated by `tools/parser_tables.txt` from the model; nothing here is trusted: `parser_decoded` checks it against the\nmodel.\n-/\n\nnamespace BoolParser\n"
  IO.println "/-- The transitions of the parser's automaton. -/\ndef parserEdges : List (Nat × ATrans) := ["
  IO.println ("    " ++ chunk 6 (a.edges.map fun (e : Nat × ATrans) => s!"({e.1}, {showT e.2})") ++ "]\n")
  IO.println "/-- The automaton in the generated parser. -/\ndef parserAtn : ATN where"
  IO.println s!"  grammarType := {a.grammarType}\n  maxTokenType := {a.maxTokenType}\n  nonGreedy := {a.nonGreedy}\n  precedence := {a.precedence}\n  modes := {a.modes}\n  rules := {a.rules}\n  actions := []\n  decisions := {a.decisions}"
  IO.println ("  states := [\n    " ++ chunk 14 (a.states.map fun (s : AState) => s!"⟨{s.type},{s.rule}⟩") ++ "]")
  IO.println "  edges := parserEdges\n"
  IO.println "theorem parser_decoded : compiledParser = some parserAtn := by krfl\n\nend BoolParser"
