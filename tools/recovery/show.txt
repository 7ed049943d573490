import Verif.Model.Recovery
open BoolParser
def kindOf : String → TK
  | "1" => .comma | "2" => .kIn | "3" => .kTo | "4" => .kAnd | "5" => .kOr | "6" => .kNot | "7" => .kTrue | "8" => .kFalse
  | "9" => .cAll | "10" => .cAny | "11" => .fn .min
  | "21" => .arith .add | "22" => .arith .sub | "23" => .arith .mul | "24" => .arith .div | "25" => .arith .mod | "26" => .arith .exp
  | "27" => .cmp .eq
  | "33" => .lparen | "34" => .rparen | "35" => .decimal | "36" => .version | "37" => .integer | "38" => .date | "39" => .datetime
  | "41" => .word | "44" => .field | _ => .eof
def tk (t : Token) : String := if t.kind == .eof then "E" else (String.ofList t.text).dropRight 1
def sh (s : ListShape) (x : String) : String := match s with
  | .absent => "null" | .childless => "none![" ++ x ++ "]" | .failed => "![" ++ x ++ "]" | .complete => "[" ++ x ++ "]"
mutual
partial def showT : RTree → String
  | .paren t => s!"(p {showT t})"
  | .not_ t => s!"(not {showT t})"
  | .neg t => s!"(neg {showT t})"
  | .cmp _ l r => s!"(b1 {showT l} {showT r})"
  | .arith op l r =>
    let n := match op with | .exp => 2 | .div => 3 | .mul => 4 | .mod => 5 | .add => 6 | .sub => 7
    s!"(b{n} {showT l} {showT r})"
  | .bin _ l r => s!"(b8 {showT l} {showT r})"
  | .func _ s es => s!"(fn {sh s (showL es)})"
  | .types t e => s!"(t {tk t} {if e then "e" else "f"})"
  | .to_ f lo hi => s!"(to {tk f} {tk lo} {match hi with | none => "null" | some (u, x) => tk u ++ ":" ++ ((String.ofList x).dropRight 1)})"
  | .in_ f n s es => s!"(in {tk f} {if n then "n" else "p"} {sh s (showL es)})"
  | .array f _ s es => s!"(arr {tk f} {sh s (showL es)})"
  | .bad => "bad"
partial def showL (l : List RTree) : String := " ".intercalate (l.map showT)
end
def main : IO Unit := do
  let inp ← (← IO.getStdin).readToEnd
  for line in inp.splitOn "\n" do
    if line != "" then
      let ws := (line.splitOn " ").filter (· != "")
      let ws := ws.drop 1
      let ts := (List.range ws.length).zip ws |>.map fun (i, w) => (⟨kindOf w, (toString i ++ ".").toList⟩ : Token)
      match rParse ts with
      | some (t, n) => IO.println s!"{showT t} {n}"
      | none => IO.println "FUEL"
