import Verif.Model.Threads
import Verif.Spec.Heap
/-!
# Vocabulary for the statements about threads
-/

namespace BoolParser.Spec

/-- The thread is in the library. -/
def Busy (s : Pool) (i : Nat) : Prop :=
  match s.thread i with
  | .idle => False
  | .running _ (.done _) => False
  | _ => True

/-- The objects a thread works with, handed to it by its caller or by the cache. -/
def handed : Thread → List Addr
  | .idle => []
  | .seeking t _ => t.args
  | .loading t _ _ => t.args
  | .running args _ => args

/-- The rules for the code outside the library. A thread makes one call at a time. Nobody knows the objects a
busy thread has created, so they are not in the data of a call. And nobody changes an object that a busy
thread has created, or works with, or that belongs to a tree in the cache. -/
def Allowed (s : Pool) : Move → Prop
  | .call i t _ _ => ¬ Busy s i ∧
      ∀ j, Busy s j → ∀ b ∈ s.own j, ∀ c ∈ t.args, ¬ LeadsTo s.heap.mem c b
  | .change b _ => (∀ key a, (key, a) ∈ s.cache → ¬ LeadsTo s.heap.mem a b) ∧
      ∀ j, Busy s j → b ∉ s.own j ∧ ∀ c ∈ handed (s.thread j), ¬ LeadsTo s.heap.mem c b
  | _ => True

/-- A schedule that keeps the rules. -/
def Orderly (P : Request → Result Node) : Pool → List Move → Prop
  | _, [] => True
  | s, mv :: ms => Allowed s mv ∧ Orderly P (s.step P mv) ms

/-- The request a move makes to the caching parser. -/
def cachedCall : Move → Option Request
  | .call _ _ .cached r => some r
  | _ => none

/-- The move is a call by the thread `i`. -/
def CallBy (i : Nat) : Move → Prop
  | .call j _ _ _ => j = i
  | _ => False

/-- How a call about the text with the node `n` should end, for data that look like `data`;
`H` is the heap when it ends. -/
def Right (H : Heap) (data : Data) (t : Job) (n : Result Node) (out : Out Answer) : Prop :=
  match t.method with
  | .condition => out = (match n >>= evalBool t.env data with
      | .ok b => .ok (.truth b)
      | .error e => .thrown e)
  | .arithmetic =>
    match n >>= evalArith t.env data with
    | .ok v => ∃ r, out = .ok (.value r) ∧ Shows H r v
    | .error e => out = .thrown e
  | .parse =>
    match n with
    | .ok n => ∃ a, out = .ok (.node a) ∧ ShowsTree H a n
    | .error e => out = .thrown e

end BoolParser.Spec
