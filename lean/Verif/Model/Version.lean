import Verif.Model.Base
/-!
# Maven `ComparableVersion`

Third-party class (`org.apache.maven.artifact.versioning.ComparableVersion`, maven-artifact 3.5.2)
used by `datatype/VersionDataType.java` and `util/ValueUtils.java:73`. The dependency is not present
in the sandbox; the parser and the comparison below follow its published source.
-/

namespace BoolParser

/-- `ComparableVersion.Item`: `IntegerItem`, `StringItem`, `ListItem`. -/
inductive VItem where
  | int (n : Nat)
  | str (s : JStr)
  | list (xs : List VItem)

namespace VItem

/-- `QUALIFIERS.indexOf(q)`. -/
def qualIndex (q : JStr) : Option Nat :=
  if q = j!"alpha" then some 0
  else if q = j!"beta" then some 1
  else if q = j!"milestone" then some 2
  else if q = j!"rc" then some 3
  else if q = j!"snapshot" then some 4
  else if q = [] then some 5
  else if q = j!"sp" then some 6
  else none

/-- `StringItem.comparableQualifier`. -/
def comparableQualifier (q : JStr) : JStr :=
  match qualIndex q with
  | some i => natStr i
  | none => j!"7-" ++ q

/-- `ALIASES.getProperty(value, value)`. -/
def alias (q : JStr) : JStr :=
  if q = j!"ga" then [] else if q = j!"final" then [] else if q = j!"cr" then j!"rc" else q

/-- The `StringItem` constructor. -/
def mkStr (q : JStr) (followedByDigit : Bool) : VItem :=
  let q' := if followedByDigit then
      (if q = ['a'] then j!"alpha" else if q = ['b'] then j!"beta"
       else if q = ['m'] then j!"milestone" else q)
    else q
  .str (alias q')

/-- `parseItem(isDigit, buf)`. -/
def mkItem (isDig : Bool) (buf : JStr) : VItem :=
  if isDig then .int (natOfDigits 0 buf) else mkStr buf false

/-- `Item.isNull()`. -/
def isNull : VItem → Bool
  | .int n => n == 0
  | .str s => cmpStr (comparableQualifier s) j!"5" == .eq
  | .list xs => xs.isEmpty

/-- `ListItem.normalize()` on the reversed list: drop null items from the end; stop at the first
non-null item that is not a list, step over non-empty lists. -/
def normRev : List VItem → List VItem
  | [] => []
  | x :: xs =>
    if x.isNull then normRev xs
    else match x with
      | .list ys => .list ys :: normRev xs
      | y => y :: xs

/-- `ListItem.normalize()`. -/
def normalize (xs : List VItem) : List VItem := (normRev xs.reverse).reverse

/-- The loop of `parseVersion`. `segs` are the finished lists, outermost first (each next list is the
last element of the one before), `cur` the items of the current innermost list in reverse, `buf` the
pending characters in reverse, `dig` the flag `isDigit`. -/
def parseGo : JStr → List (List VItem) → List VItem → JStr → Bool → List (List VItem)
  | [], segs, cur, buf, dig =>
    let cur := if buf = [] then cur else mkItem dig buf.reverse :: cur
    segs ++ [cur.reverse]
  | c :: cs, segs, cur, buf, dig =>
    if c = '.' then
      let it := if buf = [] then VItem.int 0 else mkItem dig buf.reverse
      parseGo cs segs (it :: cur) [] dig
    else if c = '-' then
      let it := if buf = [] then VItem.int 0 else mkItem dig buf.reverse
      parseGo cs (segs ++ [(it :: cur).reverse]) [] [] dig
    else if isDigit c then
      if dig = false ∧ buf ≠ [] then
        parseGo cs (segs ++ [(mkStr buf.reverse true :: cur).reverse]) [] [c] true
      else parseGo cs segs cur (c :: buf) true
    else
      if dig = true ∧ buf ≠ [] then
        parseGo cs (segs ++ [(mkItem true buf.reverse :: cur).reverse]) [] [c] false
      else parseGo cs segs cur (c :: buf) false

/-- Nest the lists (innermost last) and normalise from the innermost outwards. -/
def nest : List (List VItem) → List VItem
  | [] => []
  | [s] => normalize s
  | s :: rest => normalize (s ++ [.list (nest rest)])

/-- `new ComparableVersion(s)`: its `items`. Digits are told by `Character.isDigit` and read by
`new BigInteger(String)`, which takes the digits of all scripts. Simplification: `toLowerCase(ENGLISH)`
changes ASCII letters only. -/
def parseVersion (s : JStr) : List VItem := nest (parseGo (asciiDigits (lower s)) [] [] [] false)

/-- `item.compareTo(null)`. -/
def cmpNull : VItem → Ordering
  | .int n => if n = 0 then .eq else .gt
  | .str s => cmpStr (comparableQualifier s) j!"5"
  | .list [] => .eq
  | .list (x :: _) => cmpNull x

/-- The rest of a longer right-hand list against nothing: each `-1 * r.compareTo(null)`. -/
def cmpNulls : List VItem → Ordering
  | [] => .eq
  | y :: ys => ((cmpNull y).swap).then (cmpNulls ys)

mutual
/-- `Item.compareTo(Item)` (sign). -/
def cmpItem : VItem → VItem → Ordering
  | .int a, .int b => compare a b
  | .int _, .str _ => .gt
  | .int _, .list _ => .gt
  | .str _, .int _ => .lt
  | .str a, .str b => cmpStr (comparableQualifier a) (comparableQualifier b)
  | .str _, .list _ => .lt
  | .list _, .int _ => .lt
  | .list _, .str _ => .gt
  | .list xs, .list ys => cmpList xs ys

/-- `ListItem.compareTo(ListItem)` (sign). -/
def cmpList : List VItem → List VItem → Ordering
  | [], ys => cmpNulls ys
  | x :: xs, [] => (cmpNull x).then (cmpList xs [])
  | x :: xs, y :: ys => (cmpItem x y).then (cmpList xs ys)
end

end VItem

/-- `ComparableVersion.compareTo` (sign) of two versions given by their texts. -/
def cmpVersion (a b : JStr) : Ordering :=
  VItem.cmpList (VItem.parseVersion a) (VItem.parseVersion b)

end BoolParser
