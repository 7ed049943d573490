import Verif.Model.HandMade
/-!
# Vocabulary for nodes made by hand
-/

namespace BoolParser

mutual
/-- The node of a text as the object the library's parser builds: nothing is null but the right child of NOT and of a
negation. -/
def HNode.of : Node → HNode
  | .cmp l r op dt => .cmp (HNode.of l) (HNode.of r) (some (.cmp op)) (some dt)
  | .range f lo hi loT hiT => .range (some f) lo hi (some loT) (some hiT)
  | .inn f items => .inn (some f) (some (HNode.ofAll items))
  | .array f op items => .array (some f) (some (.arr op)) (some (HNode.ofAll items))
  | .unary dt v => .unary (some dt) v
  | .and_ l r => .bool (HNode.of l) (HNode.of r) (some .and)
  | .or_ l r => .bool (HNode.of l) (HNode.of r) (some .or)
  | .not_ l => .bool (HNode.of l) .null (some .not)
  | .field f => .field f
  | .arith op l r => .arith (HNode.of l) (HNode.of r) (some (.arith op))
  | .neg l => .arith (HNode.of l) .null (some .unary)
  | .func f items => .func (some f) (some (HNode.ofAll items))
/-- The same for a list. -/
def HNode.ofAll : List Node → List HNode
  | [] => []
  | n :: ns => HNode.of n :: HNode.ofAll ns
end

namespace Spec

mutual
/-- Every operator is of the kind the node is for, and no reference the evaluators follow is null. Nothing is asked of
the data type of a comparison, of the right child of NOT and of a negation, and of the name of a field. -/
inductive Complete : HNode → Prop
  | cmp {l r : HNode} (op : CmpOp) (dt : Option DataType) (hl : Complete l) (hr : Complete r) :
      Complete (.cmp l r (some (.cmp op)) dt)
  | range (f : JStr) (lo hi : Value) (a b : DataType) : Complete (.range (some f) lo hi (some a) (some b))
  | inn (f : JStr) {ns : List HNode} (h : CompleteAll ns) : Complete (.inn (some f) (some ns))
  | array (f : JStr) (op : ArrOp) {ns : List HNode} (h : CompleteAll ns) :
      Complete (.array (some f) (some (.arr op)) (some ns))
  | unary (dt : DataType) (v : Value) : Complete (.unary (some dt) v)
  | and {l r : HNode} (hl : Complete l) (hr : Complete r) : Complete (.bool l r (some .and))
  | or {l r : HNode} (hl : Complete l) (hr : Complete r) : Complete (.bool l r (some .or))
  | not {l : HNode} (r : HNode) (hl : Complete l) : Complete (.bool l r (some .not))
  | field (f : Option JStr) : Complete (.field f)
  | arith {l r : HNode} (op : ArithOp) (hl : Complete l) (hr : Complete r) : Complete (.arith l r (some (.arith op)))
  | neg {l : HNode} (r : HNode) (hl : Complete l) : Complete (.arith l r (some .unary))
  | func (f : FuncType) {ns : List HNode} (h : CompleteAll ns) : Complete (.func (some f) (some ns))
/-- All of a list. -/
inductive CompleteAll : List HNode → Prop
  | nil : CompleteAll []
  | cons {n : HNode} {ns : List HNode} (h : Complete n) (hs : CompleteAll ns) : CompleteAll (n :: ns)
end

/-- The operators `=` and `!=`. -/
def Equality (op : Option AnyOp) : Prop := op = some (.cmp .eq) ∨ op = some (.cmp .ne)

/-- A field node whose name is null or reads `null`: it makes an equality a test for missing data. -/
def NamesNull : HNode → Prop
  | .field none => True
  | .field (some f) => lower f = j!"null"
  | _ => False

/-- The second is null, or the two are the same. -/
def Filled {α : Type} (a b : Option α) : Prop := a = none ∨ a = b

mutual
/-- The second node is the first with something put in the place of some of its nulls: of nodes, lists, names,
operators, functions, the data types of literals. Two cases are left out, because what is put there can make an
equality a test for missing data, which does not look at its operands' values: the operator of an equality, and the
right operand of one if it is the field `null`. -/
inductive Fill : HNode → HNode → Prop
  | same (n : HNode) : Fill n n
  | null (n : HNode) : Fill .null n
  | cmp {l l' r r' : HNode} {op op' : Option AnyOp} (dt dt' : Option DataType) (hl : Fill l l') (hr : Fill r r')
      (ho : op = op' ∨ (op = none ∧ ¬ Equality op')) (hn : r = .null → Equality op' → ¬ NamesNull r') :
      Fill (.cmp l r op dt) (.cmp l' r' op' dt')
  | range {f f' : Option JStr} (lo hi : Value) (a b : Option DataType) (hf : Filled f f') :
      Fill (.range f lo hi a b) (.range f' lo hi a b)
  | inn {f f' : Option JStr} {ns ns' : Option (List HNode)} (hf : Filled f f') (hi : FillList ns ns') :
      Fill (.inn f ns) (.inn f' ns')
  | array {f f' : Option JStr} {op op' : Option AnyOp} {ns ns' : Option (List HNode)} (hf : Filled f f')
      (ho : Filled op op') (hi : FillList ns ns') : Fill (.array f op ns) (.array f' op' ns')
  | unary {dt dt' : Option DataType} (v : Value) (ht : Filled dt dt') : Fill (.unary dt v) (.unary dt' v)
  | bool {l l' r r' : HNode} {op op' : Option BoolOp} (hl : Fill l l') (hr : Fill r r') (ho : Filled op op') :
      Fill (.bool l r op) (.bool l' r' op')
  | field {f f' : Option JStr} (hf : Filled f f') : Fill (.field f) (.field f')
  | arith {l l' r r' : HNode} {op op' : Option AnyOp} (hl : Fill l l') (hr : Fill r r') (ho : Filled op op') :
      Fill (.arith l r op) (.arith l' r' op')
  | func {f f' : Option FuncType} {ns ns' : Option (List HNode)} (hf : Filled f f') (hi : FillList ns ns') :
      Fill (.func f ns) (.func f' ns')
  | foreign (a : Bool) {t t' : Option NodeType} (ht : Filled t t') : Fill (.foreign a t) (.foreign a t')
/-- The same for a reference to a list. -/
inductive FillList : Option (List HNode) → Option (List HNode) → Prop
  | null (ns : Option (List HNode)) : FillList none ns
  | some {ns ns' : List HNode} (h : FillAll ns ns') : FillList (some ns) (some ns')
/-- The same for the nodes of a list. -/
inductive FillAll : List HNode → List HNode → Prop
  | nil : FillAll [] []
  | cons {n n' : HNode} {ns ns' : List HNode} (h : Fill n n') (hs : FillAll ns ns') : FillAll (n :: ns) (n' :: ns')
end


mutual
/-- The node without the data types of its comparisons and without the right children of NOT and of negations. -/
def strip : HNode → HNode
  | .cmp l r op _ => .cmp (strip l) (strip r) op none
  | .range f lo hi a b => .range f lo hi a b
  | .inn f items => .inn f (stripList items)
  | .array f op items => .array f op (stripList items)
  | .unary dt v => .unary dt v
  | .bool l r op => .bool (strip l) (if op = some .not then .null else strip r) op
  | .field f => .field f
  | .arith l r op => .arith (strip l) (if op = some .unary then .null else strip r) op
  | .func f items => .func f (stripList items)
  | .null => .null
  | .foreign a t => .foreign a t
/-- The same for a reference to a list. -/
def stripList : Option (List HNode) → Option (List HNode)
  | none => none
  | some ns => some (stripAll ns)
/-- The same for the nodes of a list. -/
def stripAll : List HNode → List HNode
  | [] => []
  | n :: ns => strip n :: stripAll ns
end

/-- A parser that writes down how it is called and answers as `P` does. -/
def recording {ε : Type} (P : Option JStr → Option JStr → Parsed ε) : UserParser (List (Option JStr × Option JStr)) ε :=
  fun calls s df => (P s df, calls ++ [(s, df)])

/-- A `Try` of the library as the outcome of a call. -/
def called {α : Type} : Result α → Called Exn α
  | .ok a => .success a
  | .error e => .failure (.inr e)

end Spec

end BoolParser
