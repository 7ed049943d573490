import Verif.Model.Wrapped
import Verif.Spec.Paths
import Verif.Spec.Nodes
/-!
# Data with `EvaluatedNode` objects (for C100)
-/

namespace BoolParser.Spec

/-- The data type an `EvaluatedNode` claims is the one the library would find for its value. -/
def Honest (W : Wraps) : Prop := ∀ t dt x, W t = some (dt, x) → dt = getDataType x

/-- What an `EvaluatedNode` holds; any other object itself. -/
def content (W : Wraps) (v : Value) : Value :=
  match W.held v with
  | some (_, x) => x
  | none => v

/-- `d'` has, for each of the fields, what `d` has, taken out of its `EvaluatedNode`. -/
def Unwrapped (W : Wraps) (fields : List JStr) (d d' : Data) : Prop :=
  ∀ f ∈ fields, ∀ ks, Names f ks →
    (∀ v, Reaches d ks v → Reaches d' ks (content W v)) ∧ (Missing d ks → Missing d' ks)

/-- The field has this value. -/
def Found (d : Data) (f : JStr) (v : Value) : Prop := ∃ ks, Names f ks ∧ Reaches d ks v

/-- No function is called. -/
def Arith.callFree : Arith → Bool
  | .field _ => true
  | .lit _ => true
  | .group e => e.callFree
  | .op _ l r => l.callFree && r.callFree
  | .neg e => e.callFree
  | .call _ _ => false

/-- No lists and no functions. -/
def Cond.callFree : Cond → Bool
  | .cmp _ l r => l.callFree && r.callFree
  | .cmpD _ r => r.callFree
  | .isNull _ _ => true
  | .range _ _ _ => true
  | .isIn _ _ _ => false
  | .contains _ _ _ => false
  | .notField _ => true
  | .not c => c.callFree
  | .group c => c.callFree
  | .conn _ l r => l.callFree && r.callFree

/-- The fields that are operands of a calculation. -/
def Arith.calculated (e : Arith) : List JStr := if e.isAtom then [] else e.fields

/-- The fields that are compared as they are. -/
def Arith.direct (e : Arith) : List JStr := if e.isAtom then e.fields else []

/-- The fields that are operands of a calculation somewhere in a condition. -/
def Cond.calculated : Cond → List JStr
  | .cmp _ l r => l.calculated ++ r.calculated
  | .cmpD _ r => r.calculated
  | .not c => c.calculated
  | .group c => c.calculated
  | .conn _ l r => l.calculated ++ r.calculated
  | _ => []

/-- The fields that are compared as they are somewhere in a condition. -/
def Cond.direct (df : Option JStr) : Cond → List JStr
  | .cmp _ l r => l.direct ++ r.direct
  | .cmpD _ r => df.toList ++ r.direct
  | .not c => c.direct df
  | .group c => c.direct df
  | .conn _ l r => l.direct df ++ r.direct df
  | .isNull f _ => [f]
  | .range f _ _ => [f]
  | .isIn f _ _ => [f]
  | .contains f _ _ => [f]
  | .notField f => [f]

/-- What a function or a list makes of one value: an `EvaluatedNode` counts twice, as what it holds and as an object. -/
def counted (W : Wraps) (v : Value) : List Value :=
  match W.held v with
  | some (_, x) => [x, v]
  | none => [v]

/-- The data has these values for these fields. -/
def Have (d : Data) : List JStr → List Value → Prop
  | [], [] => True
  | f :: fs, v :: vs => Found d f v ∧ Have d fs vs
  | _, _ => False

end BoolParser.Spec
