import Verif.Spec.Paths
import Verif.Model.Nested
/-!
# Routes through nested maps (for C98)
-/

namespace BoolParser.Spec
open BoolParser

/-- `Route W h m ks qs v`: after the calls `h`, following the keys `ks` from the map `m` makes the calls `qs`, each to the
map that the one before returned, and the last one returns `v`. -/
inductive Route {M : Type} (W : Maps M) : List (M × JStr) → M → List JStr → List (M × JStr) → Value → Prop
  | last {h : List (M × JStr)} {m : M} {k : JStr} {v : Value} {i : Option M} : W h m k = .ok (some ⟨v, i⟩) →
      Route W h m [k] [(m, k)] v
  | step {h qs : List (M × JStr)} {m m' : M} {k k2 : JStr} {ks : List JStr} {w v : Value} :
      W h m k = .ok (some ⟨w, some m'⟩) → Route W (h ++ [(m, k)]) m' (k2 :: ks) qs v →
      Route W h m (k :: k2 :: ks) ((m, k) :: qs) v

/-- No map has the map `root` in it. -/
def NotInside {M : Type} (W : Maps M) (root : M) : Prop := ∀ h m k v, W h m k ≠ .ok (some ⟨v, some root⟩)

/-- The number of keys of all the names: one more than the dots of each. -/
def keyCount (names : List JStr) : Nat := (names.map fun f => f.count '.' + 1).sum

end BoolParser.Spec
