import Verif.Lemmas.Threads
import Verif.Props.Sharing
import Verif.Util.KRfl
/-!
# C90: threads share parsers, cached nodes and data
-/

namespace BoolParser
open HM Spec

variable {P : Request → Result Node}

/-- Any number of threads call the library at any time, each taking a step on the common heap now and then;
code outside the library changes what is not in use. Then a call that has ended came to what its text and
the data (as they were when it was called) say: there was a moment, when it ended, at which it was right.
For the caching parser no other request may have the same key (C45). -/
theorem C90_call (ms : List Move) {d : Addr} {data : Data} (hd : Shows (Pool.after P ms).heap (.ptr d) (.map data))
    (r : Request) :
    ∃ K, ∀ (i : Nat) (t : Job) (src : Source) (ms' : List Move), t.data = d → K ≤ t.m → K ≤ t.k →
      Orderly P .start (ms ++ .call i t src r :: ms') → (∀ mv ∈ ms', ¬ CallBy i mv) →
      (src = .cached → ∀ r' ∈ (ms ++ .call i t src r :: ms').filterMap cachedCall, cacheKey r' = cacheKey r → r' = r) →
      ∀ out, (Pool.after P (ms ++ .call i t src r :: ms')).outcome i = some out →
      ∃ ms₀, ms₀ <+: ms' ∧ (Pool.after P (ms ++ .call i t src r :: ms₀)).outcome i = some out ∧
        Right (Pool.after P (ms ++ .call i t src r :: ms₀)).heap data t (P r) out := by
  obtain ⟨m0, hm0⟩ := hd
  refine ⟨max m0 (match P r with | .ok n => tall n | .error _ => 0), ?_⟩
  rintro i t src ms' rfl hm hk ho hc hkey out hout
  refine call_right ms (fun _ => see_le (Nat.le_trans (Nat.le_max_left _ _) hm) hm0) (fun n hn _ => ?_) ho hc hkey hout
  rw [hn] at hk
  exact Nat.le_trans (Nat.le_max_right _ _) hk

/-- In particular a condition comes to its truth value, or throws what it throws for one thread alone. -/
theorem C90_condition (ms : List Move) {d : Addr} {data : Data}
    (hd : Shows (Pool.after P ms).heap (.ptr d) (.map data)) (r : Request) :
    ∃ K, ∀ (i : Nat) (env : Env) (m k : Nat) (src : Source) (ms' : List Move), K ≤ m → K ≤ k →
      Orderly P .start (ms ++ .call i ⟨.condition, env, m, k, d⟩ src r :: ms') → (∀ mv ∈ ms', ¬ CallBy i mv) →
      (src = .cached → ∀ r' ∈ (ms ++ .call i ⟨.condition, env, m, k, d⟩ src r :: ms').filterMap cachedCall,
        cacheKey r' = cacheKey r → r' = r) →
      ∀ out, (Pool.after P (ms ++ .call i ⟨.condition, env, m, k, d⟩ src r :: ms')).outcome i = some out →
      out = (match P r >>= evalBool env data with
        | .ok b => .ok (.truth b)
        | .error e => .thrown e) := by
  obtain ⟨K, hK⟩ := C90_call ms hd r
  refine ⟨K, fun i env m k src ms' hm hk ho hc hkey out hout => ?_⟩
  obtain ⟨_, _, _, h⟩ := hK i ⟨.condition, env, m, k, d⟩ src ms' rfl hm hk ho hc hkey out hout
  exact h

/-- A call of `parseExpression` comes to a node that shows the tree of the text when the call ends. -/
theorem C90_parse (ms : List Move) {r : Request} {i : Nat} {t : Job} (ht : t.method = .parse) {src : Source}
    {ms' : List Move} (ho : Orderly P .start (ms ++ .call i t src r :: ms')) (hc : ∀ mv ∈ ms', ¬ CallBy i mv)
    (hkey : src = .cached →
      ∀ r' ∈ (ms ++ .call i t src r :: ms').filterMap cachedCall, cacheKey r' = cacheKey r → r' = r)
    {out : Out Answer} (hout : (Pool.after P (ms ++ .call i t src r :: ms')).outcome i = some out) :
    (∃ e, P r = .error e ∧ out = .thrown e) ∨
    ∃ n a ms₀, P r = .ok n ∧ out = .ok (.node a) ∧ ms₀ <+: ms' ∧
      (Pool.after P (ms ++ .call i t src r :: ms₀)).outcome i = some out ∧
      ShowsTree (Pool.after P (ms ++ .call i t src r :: ms₀)).heap a n := by
  obtain ⟨ms₀, h1, h2, h3⟩ := call_right (data := []) ms (fun h => absurd ht h) (fun _ _ h => absurd ht h) ho hc hkey hout
  unfold Right at h3
  rw [ht] at h3
  dsimp only at h3
  cases hP : P r with
  | error e => rw [hP] at h3; exact .inl ⟨e, rfl, h3⟩
  | ok n =>
    rw [hP] at h3
    obtain ⟨a, e, h4⟩ := h3
    exact .inr ⟨n, a, ms₀, rfl, e, h1, h2, h4⟩

/-- A thread that gets a turn again and again comes to the end of its call, whatever the others do: nobody
waits for anybody. -/
theorem C90_ends (σ : Nat → Move) {i n₀ : Nat} (hb : Busy (Pool.after P ((List.range n₀).map σ)) i)
    (hc : ∀ n, n₀ ≤ n → ¬ CallBy i (σ n)) (ht : ∀ n, ∃ m, n ≤ m ∧ σ m = .turn i) :
    ∃ m, n₀ ≤ m ∧ (Pool.after P ((List.range m).map σ)).outcome i ≠ none :=
  busy_ends hc ht hb

/-- A data object with two fields. -/
def twoFields (a b : Int) : Obj := .map [(j!"a", .imm (.int a)), (j!"b", .imm (.int b))]

/-- Thread 0 evaluates `a = 1 AND b = 2` on a map with `a` = 1 and `b` = 0; meanwhile another thread does
`put("a", 0)` and then `put("b", 2)`. -/
def tornMoves (env : Env) : List Move :=
  [.create (twoFields 1 0), .call 0 ⟨.condition, env, 3, 3, 0⟩ .plain pairRequest] ++
    List.replicate 12 (.turn 0) ++ [.change 0 (twoFields 0 0), .change 0 (twoFields 0 2)] ++ List.replicate 20 (.turn 0)

/-- The rule not to change data in use is needed: the condition is false of the data as they were before,
between and after the changes, and yet the call returns true. -/
theorem C90_torn (hP : IsBoolParser P) (env : Env) :
    (P pairRequest >>= evalBool env [(j!"a", .int 1), (j!"b", .int 0)]) = .ok false ∧
    (P pairRequest >>= evalBool env [(j!"a", .int 0), (j!"b", .int 0)]) = .ok false ∧
    (P pairRequest >>= evalBool env [(j!"a", .int 0), (j!"b", .int 2)]) = .ok false ∧
    (Pool.after P (tornMoves env)).outcome 0 = some (.ok (.truth true)) := by
  have hp : P pairRequest = .ok pairTree := by
    have h := hP pairRequest
    have e : parseExpression pairRequest.expr pairRequest.df = .success pairTree := by krfl
    rw [e] at h
    exact h
  rw [hp]
  refine ⟨by krfl, by krfl, by krfl, ?_⟩
  have e : Pool.after P (tornMoves env) =
      (List.replicate 12 (Move.turn 0) ++ [Move.change 0 (twoFields 0 0), Move.change 0 (twoFields 0 2)] ++
        List.replicate 20 (Move.turn 0)).foldl (Pool.step P)
      (Pool.set ⟨[twoFields 1 0], [], fun _ => .idle, fun _ => []⟩ 0
        (.running [0] (build pairTree >>= (⟨.condition, env, 3, 3, 0⟩ : Job).on)) []) := by
    have e1 : (parseH P pairRequest : HM Addr) = build pairTree := by
      unfold parseH
      rw [hp]
      rfl
    unfold Pool.after tornMoves
    rw [List.append_assoc, List.append_assoc, List.foldl_append, ← List.append_assoc]
    congr 1
    show Pool.set _ 0 (.running [0] (parseH P pairRequest >>= (⟨.condition, env, 3, 3, 0⟩ : Job).on)) [] = _
    rw [e1]
    rfl
  rw [e]
  krfl

/-- Two threads evaluate the same text with the same caching parser on the same data, turn by turn. -/
def sharedMoves (env : Env) : List Move :=
  [.create (twoFields 1 2), .call 0 ⟨.condition, env, 3, 3, 0⟩ .cached pairRequest,
    .call 1 ⟨.condition, env, 3, 3, 0⟩ .cached pairRequest] ++
    (List.replicate 30 [Move.turn 0, Move.turn 1]).flatten

theorem orderly_turns {s : Pool} : ∀ {ms : List Move}, (∀ mv ∈ ms, ∃ i, mv = .turn i) → Orderly P s ms
  | [], _ => trivial
  | mv :: ms, h => by
    obtain ⟨i, rfl⟩ := h mv List.mem_cons_self
    exact ⟨trivial, orderly_turns (fun x hx => h x (List.mem_cons_of_mem _ hx))⟩

/-- The hypotheses of `C90_condition` are met: the schedule is orderly, both calls end, and both are right. -/
example (env : Env) : Orderly (fun _ => .ok pairTree) .start (sharedMoves env) ∧
    (∀ mv ∈ (sharedMoves env).drop 3, ¬ CallBy 0 mv ∧ ¬ CallBy 1 mv) ∧
    (∀ r' ∈ (sharedMoves env).filterMap cachedCall, r' = pairRequest) ∧
    (Pool.after (fun _ => .ok pairTree) (sharedMoves env)).outcome 0 = some (.ok (.truth true)) ∧
    (Pool.after (fun _ => .ok pairTree) (sharedMoves env)).outcome 1 = some (.ok (.truth true)) := by
  have ht : ∀ mv ∈ (List.replicate 30 [Move.turn 0, Move.turn 1]).flatten, ∃ i, mv = .turn i := by
    intro mv hmv
    obtain ⟨l, hl, hmv⟩ := List.mem_flatten.1 hmv
    rw [(List.mem_replicate.1 hl).2] at hmv
    rcases List.mem_cons.1 hmv with h | h
    · exact ⟨_, h⟩
    · exact ⟨_, List.mem_singleton.1 h⟩
  refine ⟨⟨trivial, ⟨?_, ?_⟩, ⟨?_, ?_⟩, orderly_turns ht⟩, ?_, ?_, by krfl, by krfl⟩
  · exact id
  · intro j hj
    exact hj.elim
  · exact id
  · intro j _ b hb
    have e : ((Pool.start.step (fun _ => .ok pairTree) (.create (twoFields 1 2))).step (fun _ => .ok pairTree)
        (.call 0 ⟨.condition, env, 3, 3, 0⟩ .cached pairRequest)).own j = [] := by
      show (if j = 0 then [] else []) = []
      split <;> rfl
    rw [e] at hb
    cases hb
  · intro mv hmv
    obtain ⟨i, rfl⟩ := ht mv hmv
    exact ⟨id, id⟩
  · intro r' hr'
    have e : (sharedMoves env).filterMap cachedCall = [pairRequest, pairRequest] := by krfl
    rw [e] at hr'
    simpa using hr'

/-- While thread 0 evaluates on one map, another thread changes another map. -/
def besideMoves (env : Env) : List Move :=
  [.create (twoFields 1 2), .create (twoFields 5 5), .call 0 ⟨.condition, env, 3, 3, 0⟩ .plain pairRequest,
    .turn 0, .turn 0, .turn 0, .change 1 (twoFields 6 6)] ++ List.replicate 30 (.turn 0)

/-- That is orderly too. -/
example (env : Env) : Orderly (fun _ => .ok pairTree) .start (besideMoves env) ∧
    (Pool.after (fun _ => .ok pairTree) (besideMoves env)).outcome 0 = some (.ok (.truth true)) := by
  refine ⟨⟨trivial, trivial, ⟨id, fun j hj => hj.elim⟩, trivial, trivial, trivial, ⟨?_, ?_⟩,
    orderly_turns (fun mv h => ⟨0, (List.mem_replicate.1 h).2⟩)⟩, by krfl⟩
  · intro key a h
    cases h
  · intro j hj
    by_cases e : j = 0
    · subst e
      refine ⟨?_, ?_⟩
      · intro h
        have h' : 1 ∈ [4, 3, 2] := h
        simp at h'
      · intro c hc hl
        have hc' : c ∈ [0] := hc
        rw [List.mem_singleton] at hc'
        subst hc'
        cases hl with
        | step h1 h2 _ =>
          have h3 : some (twoFields 1 2) = some _ := h1
          cases h3
          simp [twoFields, links, refLink] at h2
    · have h : (Pool.after (fun _ => .ok pairTree) ((besideMoves env).take 6)).thread j = .idle := by
        refine (steps_thread (fun mv hm => ?_)).trans rfl
        have hm' : mv ∈ [.create (twoFields 1 2), .create (twoFields 5 5),
          .call 0 ⟨.condition, env, 3, 3, 0⟩ .plain pairRequest, .turn 0, .turn 0, .turn 0] := hm
        simp only [List.mem_cons, List.not_mem_nil, or_false] at hm'
        rcases hm' with rfl | rfl | rfl | rfl | rfl | rfl <;> simp [CallBy, Ne.symm e]
      have hj' : Busy (Pool.after (fun _ => .ok pairTree) ((besideMoves env).take 6)) j := hj
      unfold Busy at hj'
      rw [h] at hj'
      exact hj'.elim

/-- The hypotheses of `C90_parse` are met: two threads ask the caching parser for the node at the same time,
and both get the one node that is kept. -/
example (env : Env) :
    (Pool.after (fun _ => .ok pairTree) ([.call 0 ⟨.parse, env, 0, 0, 0⟩ .cached pairRequest,
      .call 1 ⟨.parse, env, 0, 0, 0⟩ .cached pairRequest] ++
      (List.replicate 12 [Move.turn 0, Move.turn 1]).flatten)).outcome 0 = some (.ok (.node 12)) ∧
    (Pool.after (fun _ => .ok pairTree) ([.call 0 ⟨.parse, env, 0, 0, 0⟩ .cached pairRequest,
      .call 1 ⟨.parse, env, 0, 0, 0⟩ .cached pairRequest] ++
      (List.replicate 12 [Move.turn 0, Move.turn 1]).flatten)).outcome 1 = some (.ok (.node 12)) :=
  ⟨by krfl, by krfl⟩

/-- The hypotheses of `C90_ends` are met: two threads take turns for ever. -/
example (env : Env) : ∃ σ : Nat → Move, Busy (Pool.after (fun _ => .ok pairTree) ((List.range 2).map σ)) 0 ∧
    (∀ n, 2 ≤ n → ¬ CallBy 0 (σ n)) ∧ ∀ n, ∃ m, n ≤ m ∧ σ m = .turn 0 := by
  refine ⟨fun n => if n = 0 then .create (twoFields 1 2) else if n = 1 then
    .call 0 ⟨.condition, env, 3, 3, 0⟩ .cached pairRequest else .turn (n % 2), trivial, ?_, ?_⟩
  · intro n hn h
    have e0 : n ≠ 0 := by omega
    have e1 : n ≠ 1 := by omega
    simp [e0, e1, CallBy] at h
  · intro n
    refine ⟨2 * n + 2, by omega, ?_⟩
    have e0 : 2 * n + 2 ≠ 0 := by omega
    have e1 : 2 * n + 2 ≠ 1 := by omega
    have e2 : (2 * n + 2) % 2 = 0 := by omega
    simp

end BoolParser
