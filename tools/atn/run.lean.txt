import Verif.Model.Parser
open BoolParser
def fnm : FuncType → String | .min=>"min"|.max=>"max"|.avg=>"avg"|.sum=>"sum"|.mean=>"mean"|.mode=>"mode"|.median=>"median"|.int=>"int"|.len=>"len"|.daysElapsed=>"daysElapsed"
def opn : ArithOp → String | .add=>"add"|.sub=>"sub"|.mul=>"mul"|.div=>"div"|.mod=>"mod"|.exp=>"exp"
def cmn : CmpOp → String | .eq=>"eq"|.ne=>"ne"|.gt=>"gt"|.ge=>"ge"|.lt=>"lt"|.le=>"le"
def kn : TK → String
  | .comma=>"comma"|.kIn=>"kIn"|.kTo=>"kTo"|.kAnd=>"kAnd"|.kOr=>"kOr"|.kNot=>"kNot"|.kTrue=>"kTrue"|.kFalse=>"kFalse"|.cAll=>"cAll"|.cAny=>"cAny"
  |.fn f=>"fn "++fnm f|.arith o=>"arith "++opn o|.cmp o=>"cmp "++cmn o|.lparen=>"lparen"|.rparen=>"rparen"|.decimal=>"decimal"|.version=>"version"|.integer=>"integer"|.date=>"date"|.datetime=>"datetime"|.word=>"word"|.field=>"field"|.eof=>"eof"
def main : IO Unit := do
  let s ← IO.FS.readFile "/tmp/atn/in.txt"
  let ls := (s.splitOn "\n").dropLast
  let out := ls.map (fun l => "\x01".intercalate ((lex l.toList).map (fun t => kn t.kind ++ ":" ++ String.ofList t.text)))
  IO.FS.writeFile "/tmp/atn/got.txt" ("\n".intercalate out ++ "\n")
