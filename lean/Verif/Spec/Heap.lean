import Verif.Model.Sharing
/-!
# Reading the heap, for the statements about sharing
-/

namespace BoolParser.Spec

/-- The value a caller sees at a reference. -/
def Shows (H : Heap) (r : Ref) (v : Value) : Prop := ∃ m, see m H.mem r = some v

/-- The tree a caller sees at a node object. -/
def ShowsTree (H : Heap) (a : Addr) (n : Node) : Prop := ∃ m k, seeTree m k H.mem (some a) = some n

/-- How a method ends that computes `r`. -/
def ending {α : Type} : Result α → Out α
  | .ok a => .ok a
  | .error e => .thrown e

/-- The object a reference leads to. -/
def refLink : Ref → List Addr
  | .imm _ => []
  | .ptr a => [a]

/-- The objects the fields of a node lead to. -/
def nodeLinks : NodeObj → List Addr
  | .cmp l r _ _ => l.toList ++ r.toList
  | .range _ lo hi _ _ => refLink lo ++ refLink hi
  | .inn _ items => [items]
  | .array _ _ items => [items]
  | .unary _ v => refLink v
  | .bool _ l r => l.toList ++ r.toList
  | .field _ => []
  | .arith _ l r => l.toList ++ r.toList
  | .func _ items => [items]

/-- The objects an object leads to. -/
def links : Obj → List Addr
  | .list xs => xs.flatMap refLink
  | .coll xs => xs.flatMap refLink
  | .arr _ xs => xs.flatMap refLink
  | .map es => es.flatMap (fun e => refLink e.2)
  | .node n => nodeLinks n
  | .nodes xs => xs.flatMap Option.toList
  | .evald _ v => refLink v
  | .evalds xs => xs
  | .decs _ => []
  | .counts _ => []

/-- `b` can be reached from `a`. -/
inductive LeadsTo (H : Mem) : Addr → Addr → Prop
  | here (a : Addr) : LeadsTo H a a
  | step {a b c : Addr} {o : Obj} : H a = some o → b ∈ links o → LeadsTo H b c → LeadsTo H a c

/-- The step changes no object that belongs to a tree in the cache. -/
def LeavesCached (s : Prog) : Act → Prop
  | .change b _ => ∀ key a, (key, a) ∈ s.cache → ¬ LeadsTo s.heap.mem a b
  | _ => True

/-- Nobody changes a node the caching parser still holds. -/
def Careful (P : Request → Result Node) : Prog → List Act → Prop
  | _, [] => True
  | s, act :: acts => LeavesCached s act ∧ Careful P (s.step P act) acts

/-- The request a step makes to the caching parser. -/
def cachedRequest : Act → Option Request
  | .parse .cached r => some r
  | .evaluate _ _ _ .cached r _ => some r
  | .evaluateArith _ _ _ .cached e _ => some ⟨e, none⟩
  | _ => none

end BoolParser.Spec
