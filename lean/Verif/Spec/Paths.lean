import Verif.Spec.Expr
/-!
# Field names as paths through nested maps
-/

namespace BoolParser.Spec
open BoolParser

/-- The keys of a path joined by dots. -/
def joinDots : List JStr → JStr
  | [] => []
  | [k] => k
  | k :: k2 :: ks => k ++ '.' :: joinDots (k2 :: ks)

/-- The keys contain no dot and the last one is not empty. -/
def IsPath (ks : List JStr) : Prop := ks ≠ [] ∧ (∀ k ∈ ks, '.' ∉ k) ∧ ks.getLast? ≠ some []

/-- The map has the value `v` for the key `k`. -/
def HasEntry (d : Data) (k : JStr) (v : Value) : Prop :=
  ∃ pre post, d = pre ++ (k, v) :: post ∧ ∀ e ∈ pre, e.1 ≠ k

/-- Following the keys through nested maps leads to the value `v`, which is not null. -/
inductive Reaches : Data → List JStr → Value → Prop
  | leaf {d : Data} {k : JStr} {v : Value} : HasEntry d k v → v ≠ .null → Reaches d [k] v
  | step {d es : Data} {k k2 : JStr} {ks : List JStr} {v : Value} :
      HasEntry d k (.map es) → Reaches es (k2 :: ks) v → Reaches d (k :: k2 :: ks) v

/-- There is no (non-null) value at the end of the path. -/
def Missing (d : Data) (ks : List JStr) : Prop := ∀ v, ¬ Reaches d ks v

/-- `f` names the path `ks`: the keys joined by dots, possibly with dots at the end. -/
def Names (f : JStr) (ks : List JStr) : Prop := IsPath ks ∧ ∃ n, f = joinDots ks ++ List.replicate n '.'

/-- The two maps have the same value, or both none, for the field name. -/
def AgreeOn (f : JStr) (d d' : Data) : Prop := ∀ ks v, Names f ks → (Reaches d ks v ↔ Reaches d' ks v)

mutual
/-- The field names in an expression. -/
def Arith.fields : Arith → List JStr
  | .field f => [f]
  | .lit _ => []
  | .group e => e.fields
  | .op _ l r => l.fields ++ r.fields
  | .neg e => e.fields
  | .call _ args => Arith.allFields args
def Arith.allFields : List Arith → List JStr
  | [] => []
  | e :: es => e.fields ++ Arith.allFields es
end

/-- The field names in a condition; an omitted operand mentions the default field. -/
def Cond.fields (df : Option JStr) : Cond → List JStr
  | .cmp _ l r => l.fields ++ r.fields
  | .cmpD _ r => df.toList ++ r.fields
  | .isNull f _ => [f]
  | .range f _ _ => [f]
  | .isIn f _ items => f :: Arith.allFields items
  | .contains f _ items => f :: Arith.allFields items
  | .notField f => [f]
  | .not c => c.fields df
  | .group c => c.fields df
  | .conn _ l r => l.fields df ++ r.fields df

mutual
/-- The same value, up to the order of the entries of the maps in it (keys are distinct, as in every `Map`). -/
inductive Reordered : Value → Value → Prop
  | refl (v : Value) : Reordered v v
  | map {es mid es' : List (JStr × Value)} : (es.map Prod.fst).Nodup → ReorderedEntries es mid → mid.Perm es' →
      Reordered (.map es) (.map es')
/-- Entry by entry the same keys and the same values up to reordering. -/
inductive ReorderedEntries : List (JStr × Value) → List (JStr × Value) → Prop
  | nil : ReorderedEntries [] []
  | cons {k : JStr} {v v' : Value} {es es' : List (JStr × Value)} : Reordered v v' → ReorderedEntries es es' →
      ReorderedEntries ((k, v) :: es) ((k, v') :: es')
end

/-- Not a map. -/
def NotMap : Value → Prop
  | .map _ => False
  | _ => True

end BoolParser.Spec
