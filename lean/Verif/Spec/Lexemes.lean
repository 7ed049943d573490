import Verif.Model.Functions
/-!
# Lexemes of the operators, functions and keywords
-/

namespace BoolParser.Spec
open BoolParser

/-! The canonical spellings. -/

def cmpText : CmpOp → JStr
  | .eq => j!"="
  | .ne => j!"!="
  | .gt => j!">"
  | .ge => j!">="
  | .lt => j!"<"
  | .le => j!"<="

def arithText : ArithOp → JStr
  | .add => j!"+"
  | .sub => j!"-"
  | .mul => j!"*"
  | .div => j!"/"
  | .mod => j!"%"
  | .exp => j!"^"

def connText : Bool → JStr
  | true => j!"AND"
  | false => j!"OR"

def fnText : FuncType → JStr
  | .min => j!"MIN"
  | .max => j!"MAX"
  | .avg => j!"AVG"
  | .sum => j!"SUM"
  | .mean => j!"MEAN"
  | .mode => j!"MODE"
  | .median => j!"MEDIAN"
  | .int => j!"INT"
  | .len => j!"LEN"
  | .daysElapsed => j!"DAYS_ELAPSED"

def arrText : ArrOp → JStr
  | .containsAll => j!"CONTAINS_ALL"
  | .containsAny => j!"CONTAINS_ANY"

/-- The other spellings of a keyword or operator. -/
def otherSpellings : List (JStr × JStr) :=
  [(j!"AND", j!"and"), (j!"AND", j!"&&"), (j!"OR", j!"or"), (j!"OR", j!"||"), (j!"NOT", j!"not"),
   (j!"IN", j!"in"), (j!"TO", j!"to"), (j!"true", j!"TRUE"), (j!"false", j!"FALSE"),
   (j!"CONTAINS_ALL", j!"contains_all"), (j!"CONTAINS_ANY", j!"contains_any"),
   (j!"MIN", j!"min"), (j!"MAX", j!"max"), (j!"AVG", j!"avg"), (j!"SUM", j!"sum"), (j!"MEAN", j!"mean"),
   (j!"MODE", j!"mode"), (j!"MEDIAN", j!"median"), (j!"LEN", j!"len"), (j!"INT", j!"int"),
   (j!"DAYS_ELAPSED", j!"days_elapsed")]

/-- `l'` is the lexeme `l`, possibly in another spelling. -/
def SameLexeme (l l' : JStr) : Prop := l' = l ∨ (l, l') ∈ otherSpellings

instance (l l' : JStr) : Decidable (SameLexeme l l') := inferInstanceAs (Decidable (_ ∨ _))

end BoolParser.Spec
