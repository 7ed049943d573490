import Verif.Model.Heap
import Verif.Model.Session
/-!
# Parsers and evaluators sharing node objects

`BooleanNode`, `ArithmeticNode` and `ArithmeticFunctionNode` have setters, and the item lists of the other
nodes are ordinary lists (`domain/**/*.java`). The caching parser hands out the node object it keeps.
-/

namespace BoolParser
open HM

mutual
/-- The node objects of a tree. Every node is made by a constructor or builder of its own and goes to one
place only: children are popped off the listener's stack or made for their parent
(`parser/antlr/BooleanFilterListener.java`). Simplification: the order in which the listener creates them
is not kept. -/
def build : Node → HM Addr
  | .cmp l r op dt => do
    let a ← build l
    let b ← build r
    alloc (.node (.cmp (some a) (some b) op dt))
  | .range f lo hi loT hiT => alloc (.node (.range f (.imm lo) (.imm hi) loT hiT))
  | .inn f items => do
    let xs ← buildAll items
    let l ← alloc (.nodes xs)
    alloc (.node (.inn f l))
  | .array f op items => do
    let xs ← buildAll items
    let l ← alloc (.nodes xs)
    alloc (.node (.array f op l))
  | .unary dt v => alloc (.node (.unary dt (.imm v)))
  | .and_ l r => do
    let a ← build l
    let b ← build r
    alloc (.node (.bool .and (some a) (some b)))
  | .or_ l r => do
    let a ← build l
    let b ← build r
    alloc (.node (.bool .or (some a) (some b)))
  | .not_ l => do
    let a ← build l
    alloc (.node (.bool .not (some a) none))
  | .field f => alloc (.node (.field f))
  | .arith op l r => do
    let a ← build l
    let b ← build r
    alloc (.node (.arith (some op) (some a) (some b)))
  | .neg l => do
    let a ← build l
    alloc (.node (.arith none (some a) none))
  | .func f items => do
    let xs ← buildAll items
    let l ← alloc (.nodes xs)
    alloc (.node (.func f l))
/-- The nodes of an item list. -/
def buildAll : List Node → HM (List (Option Addr))
  | [] => pure []
  | n :: ns => do
    let a ← build n
    let as ← buildAll ns
    pure (some a :: as)
end

/-- The state of a program: its objects, and the entries of a caching parser. -/
structure Prog where
  heap : Heap
  cache : List (JStr × Addr)

/-- `cache.getIfPresent`. -/
def findAddr (c : List (JStr × Addr)) (k : JStr) : Option Addr :=
  match c with
  | [] => none
  | (k', a) :: es => if k' = k then some a else findAddr es k

/-- `BoolParser.parseExpression` over a parser `P` of texts into trees (`parser/antlr/BoolParser.java:20-43`):
new objects every time. -/
def parseH (P : Request → Result Node) (r : Request) : HM Addr := do
  let n ← HM.lift (P r)
  build n

/-- The node of a request: from the plain parser, or from the caching parser, which keeps what it returns
(`parser/antlr/CachedBoolParser.java:18-31`). -/
def Prog.node (P : Request → Result Node) (s : Prog) (src : Source) (r : Request) : Out Addr × Prog :=
  match src with
  | .plain => ((parseH P r s.heap).1, { s with heap := (parseH P r s.heap).2 })
  | .cached =>
    match findAddr s.cache (cacheKey r) with
    | some a => (.ok a, s)
    | none =>
      match parseH P r s.heap with
      | (.ok a, H) => (.ok a, ⟨H, (cacheKey r, a) :: s.cache⟩)
      | (o, H) => (o, { s with heap := H })

/-- `BooleanExpressionEvaluator.evaluate(expression, data, defaultField)`
(`application/BooleanExpressionEvaluator.java:48-51`) with data at `d`; `m` and `k` are the depths of
`Model/Heap`. -/
def Prog.evaluate (P : Request → Result Node) (env : Env) (m k : Nat) (s : Prog) (src : Source) (r : Request) (d : Addr) :
    Out Bool × Prog :=
  match s.node P src r with
  | (.ok a, t) =>
    ((evalBoolH env m d k (some a) t.heap).1, { t with heap := (evalBoolH env m d k (some a) t.heap).2 })
  | (.thrown e, t) => (.thrown e, t)
  | (.stuck, t) => (.stuck, t)

/-- `ArithmeticExpressionEvaluator.evaluate(expression, data)`
(`application/ArithmeticExpressionEvaluator.java:41-44`). -/
def Prog.evaluateArith (P : Request → Result Node) (env : Env) (m k : Nat) (s : Prog) (src : Source) (expr : JStr)
    (d : Addr) : Out Ref × Prog :=
  match s.node P src ⟨expr, none⟩ with
  | (.ok a, t) =>
    ((evalArithH env m d k (some a) t.heap).1, { t with heap := (evalArithH env m d k (some a) t.heap).2 })
  | (.thrown e, t) => (.thrown e, t)
  | (.stuck, t) => (.stuck, t)

/-- What a program does: parse, evaluate, lose cache entries, make objects of its own, and change objects
(a setter of a node, `add` or `set` on an item list, `put` on a data map, …). -/
inductive Act where
  | parse (src : Source) (r : Request)
  | evaluate (env : Env) (m k : Nat) (src : Source) (r : Request) (d : Addr)
  | evaluateArith (env : Env) (m k : Nat) (src : Source) (expr : JStr) (d : Addr)
  | evict (keep : JStr → Bool)
  | create (o : Obj)
  | change (a : Addr) (o : Obj)

/-- One step. -/
def Prog.step (P : Request → Result Node) (s : Prog) : Act → Prog
  | .parse src r => (s.node P src r).2
  | .evaluate env m k src r d => (s.evaluate P env m k src r d).2
  | .evaluateArith env m k src e d => (s.evaluateArith P env m k src e d).2
  | .evict keep => { s with cache := s.cache.filter (fun e => keep e.1) }
  | .create o => { s with heap := s.heap ++ [o] }
  | .change a o => { s with heap := s.heap.set a o }

/-- The state after a history, from the start of the program. -/
def Prog.after (P : Request → Result Node) (acts : List Act) : Prog := acts.foldl (Prog.step P) ⟨[], []⟩

end BoolParser
