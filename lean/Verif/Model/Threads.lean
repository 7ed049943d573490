import Verif.Model.Sharing
/-!
# Threads

Any number of threads use parsers and evaluators on one heap, each taking one step on it at a time: it reads,
changes or creates one object, or asks the cache. Between two steps of a thread anything may happen.
-/

namespace BoolParser
open HM

/-- What a call returns: a truth value, the value of a calculation, or a node. -/
inductive Answer where
  | truth (b : Bool)
  | value (r : Ref)
  | node (a : Addr)

/-- The methods of the library: `BooleanExpressionEvaluator.evaluate`, `ArithmeticExpressionEvaluator.evaluate`,
and `parseExpression` itself. -/
inductive Method where
  | condition
  | arithmetic
  | parse
deriving DecidableEq

/-- A call, apart from its text: the method, the data it is given, and the parameters of `Model/Heap`
(`parse` uses none of these). -/
structure Job where
  method : Method
  env : Env
  m : Nat
  k : Nat
  data : Addr

/-- What is done with the node (`application/BooleanExpressionEvaluator.java:50`,
`application/ArithmeticExpressionEvaluator.java:43`; nothing in `parser/antlr/BoolParser.java:20-31`). -/
def Job.on (t : Job) (a : Addr) : HM Answer :=
  match t.method with
  | .condition => do
    let b ← evalBoolH t.env t.m t.data t.k (some a)
    pure (.truth b)
  | .arithmetic => do
    let r ← evalArithH t.env t.m t.data t.k (some a)
    pure (.value r)
  | .parse => pure (.node a)

/-- The objects the caller hands to the call. -/
def Job.args (t : Job) : List Addr :=
  match t.method with
  | .parse => []
  | _ => [t.data]

/-- Where a thread is: not in the library; about to ask the cache; making the node for the cache; or in any
other method, of which `x` is the rest, working with the objects `args`. -/
inductive Thread where
  | idle
  | seeking (t : Job) (r : Request)
  | loading (t : Job) (key : JStr) (x : HM Addr)
  | running (args : List Addr) (x : HM Answer)

/-- The state of the program: its objects, the entries of the caching parser, its threads, and for each
thread the objects it has created in its current (or else its last) method. -/
structure Pool where
  heap : Heap
  cache : List (JStr × Addr)
  thread : Nat → Thread
  own : Nat → List Addr

/-- One step of a method on the heap: what is left of it, the heap, and the objects it has created so far. -/
def HM.step {α : Type} (x : HM α) (H : Heap) (own : List Addr) : HM α × Heap × List Addr :=
  match x with
  | .done o => (.done o, H, own)
  | .readThen a k =>
    match H[a]? with
    | some o => (k o, H, own)
    | none => (.done .stuck, H, own)
  | .writeThen a o k => (k, H.set a o, own)
  | .allocThen o k => (k H.length, H ++ [o], H.length :: own)

/-- The thread `i` goes on as `th`, having created `own`. -/
def Pool.set (s : Pool) (i : Nat) (th : Thread) (own : List Addr) : Pool :=
  { s with
    thread := fun j => if j = i then th else s.thread j
    own := fun j => if j = i then own else s.own j }

/-- A call begins. The plain parser makes new nodes (`parser/antlr/BoolParser.java:20-45`). -/
def Job.begin (P : Request → Result Node) (t : Job) (src : Source) (r : Request) : Thread :=
  match src with
  | .plain => .running t.args (do
      let a ← parseH P r
      t.on a)
  | .cached => .seeking t r

/-- One step of the thread `i`. `cache.get(key, loader)` (`parser/antlr/CachedBoolParser.java:30`) is taken as: look
the key up; if it is absent make the node; then put it in, unless another thread has done so meanwhile.
(Caffeine lets the other thread wait, which allows fewer schedules.) -/
def Pool.turn (P : Request → Result Node) (s : Pool) (i : Nat) : Pool :=
  match s.thread i with
  | .idle => s
  | .seeking t r =>
    match findAddr s.cache (cacheKey r) with
    | some a => s.set i (.running (a :: t.args) (t.on a)) []
    | none => s.set i (.loading t (cacheKey r) (parseH P r)) []
  | .loading t key (.done (.ok a)) =>
    match findAddr s.cache key with
    | some b => s.set i (.running (b :: t.args) (t.on b)) []
    | none => { s with cache := (key, a) :: s.cache }.set i (.running (a :: t.args) (t.on a)) []
  | .loading t _ (.done (.thrown e)) => s.set i (.running t.args (.done (.thrown e))) []
  | .loading t _ (.done .stuck) => s.set i (.running t.args (.done .stuck)) []
  | .loading t key x =>
    { s with heap := (x.step s.heap (s.own i)).2.1 }.set i (.loading t key (x.step s.heap (s.own i)).1)
      (x.step s.heap (s.own i)).2.2
  | .running args x =>
    { s with heap := (x.step s.heap (s.own i)).2.1 }.set i (.running args (x.step s.heap (s.own i)).1)
      (x.step s.heap (s.own i)).2.2

/-- What happens: a thread takes a step; a thread calls the library; the cache loses entries; and code outside
the library creates and changes objects. -/
inductive Move where
  | turn (i : Nat)
  | call (i : Nat) (t : Job) (src : Source) (r : Request)
  | evict (keep : JStr → Bool)
  | create (o : Obj)
  | change (a : Addr) (o : Obj)

/-- One move. -/
def Pool.step (P : Request → Result Node) (s : Pool) : Move → Pool
  | .turn i => s.turn P i
  | .call i t src r => s.set i (t.begin P src r) []
  | .evict keep => { s with cache := s.cache.filter (fun e => keep e.1) }
  | .create o => { s with heap := s.heap ++ [o] }
  | .change a o => { s with heap := s.heap.set a o }

/-- The start of the program. -/
def Pool.start : Pool := ⟨[], [], fun _ => .idle, fun _ => []⟩

/-- The state after a schedule, from the start of the program. -/
def Pool.after (P : Request → Result Node) (ms : List Move) : Pool := ms.foldl (Pool.step P) Pool.start

/-- How the call of the thread `i` has ended, if it has. -/
def Pool.outcome (s : Pool) (i : Nat) : Option (Out Answer) :=
  match s.thread i with
  | .running _ (.done o) => some o
  | _ => none

end BoolParser
