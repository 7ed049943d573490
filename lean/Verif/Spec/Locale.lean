import Verif.Model.Base
/-!
# Words with an `i`

Keywords and function names may be written in capitals or in lower case. In lower case some contain the letter `i`,
whose capital is `İ` in Turkish and Azeri.
-/

namespace BoolParser.Spec
open BoolParser

/-- Function names in lower case that contain an `i`. -/
def dottedFunctions : List JStr := [j!"min", j!"int", j!"median"]

/-- Keywords of list tests in lower case that contain an `i`, apart from `in`. -/
def dottedKeywords : List JStr := [j!"contains_all", j!"contains_any"]

end BoolParser.Spec
