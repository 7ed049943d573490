import Verif.Lemmas.State
import Verif.Lemmas.Lookup
import Verif.Lemmas.Lists
import Verif.Props.Pipeline
import Verif.Spec.Tokens
/-!
# Caching, registries, histories

C45 the cache is transparent, C46 what the cache holds, C47 evaluation has no memory, C48 concurrent
construction.

`P` is the uncached parser, any function of the request; `IsBoolParser P` says that it is the modelled one.
-/

namespace BoolParser
open Spec

/-! ## C45: the caching parser is transparent -/

/-- **C45**, in general: whatever was requested and evicted before, a request returns what the plain parser
returns, unless an earlier request with the same key is parsed differently. -/
theorem C45_transparent (P : Request → Result Node) (ops : List CacheOp) (r : Request)
    (h : ∀ r' ∈ requestsOf ops, cacheKey r' = cacheKey r → P r' = P r) :
    (cachedParse P (cacheAfter P ops) r).1 = P r :=
  transparent (sound_after P ops) h

/-- **C45** (partial): if every default field is absent or non-empty and free of `_`, the caching parser
returns what the plain parser returns, whatever was requested and evicted before. Missing: empty default
fields and those with `_`, see `C45_collision` and `C45_empty_default`. -/
theorem C45_transparent_partial (P : Request → Result Node) (ops : List CacheOp) (r : Request)
    (hops : ∀ r' ∈ requestsOf ops, Distinguishable r') (hr : Distinguishable r) :
    (cachedParse P (cacheAfter P ops) r).1 = P r :=
  C45_transparent P ops r fun r' hr' hk => by rw [key_inj (hops r' hr') hr hk]

/-- **C45**, one default field: if the default field is the same in all requests, whatever it is, the caching
parser returns what the plain parser returns. -/
theorem C45_one_default (P : Request → Result Node) (ops : List CacheOp) (df : Option JStr) (expr : JStr)
    (hops : ∀ r' ∈ requestsOf ops, r'.df = df) :
    (cachedParse P (cacheAfter P ops) ⟨expr, df⟩).1 = P ⟨expr, df⟩ := by
  refine C45_transparent P ops _ fun r' hr' hk => ?_
  obtain ⟨e, df'⟩ := r'
  have : df' = df := hops _ hr'
  subst this
  simp only [cacheKey] at hk
  rw [List.append_cancel_right (List.append_cancel_right hk)]

/-- **C45**, evaluation: under the same condition an evaluation through the caching parser is the evaluation of
the API. -/
theorem C45_evaluate (P : Request → Result Node) (hP : IsBoolParser P) (ops : List CacheOp) (r : Request)
    (hops : ∀ r' ∈ requestsOf ops, Distinguishable r') (hr : Distinguishable r) (env : Env) (d : Data) :
    (∀ b, evaluate env r.expr d r.df = .success b →
      (cachedParse P (cacheAfter P ops) r).1 >>= evalBool env d = .ok b) ∧
    (∀ e, evaluate env r.expr d r.df = .failure e →
      (cachedParse P (cacheAfter P ops) r).1 >>= evalBool env d = .error e) := by
  rw [C45_transparent_partial P ops r hops hr]
  have h := hP r
  rw [evaluate]
  cases hp : parseExpression r.expr r.df with
  | success n =>
    rw [hp] at h
    simp only at h
    rw [h, ok_bind, Outcome.andThen]
    cases evalBool env d n with
    | ok b => exact ⟨fun b' e => (by cases e; rfl), fun _ e => (by cases e)⟩
    | error x => exact ⟨fun _ e => (by cases e), fun e' e => (by cases e; rfl)⟩
  | failure x =>
    rw [hp] at h
    simp only at h
    rw [h]
    exact ⟨fun _ e => (by cases e), fun e' e => by cases e; rfl⟩
  | syntaxError => exact ⟨fun _ e => (by cases e), fun _ e => (by cases e)⟩

/-- **C45 (negation)**: two requests with the same key and different parses. The second gets the parse of the
first. -/
theorem C45_collides (P : Request → Result Node) {r r' : Request} (hk : cacheKey r = cacheKey r') {n : Node}
    (hn : P r = .ok n) : (cachedParse P (cacheAfter P [.request r]) r').1 = .ok n := by
  have : cacheAfter P [.request r] = [(cacheKey r, n)] := by
    simp [cacheAfter, cacheStep, cachedParse, Cache.find, hn]
  rw [this, cachedParse, Cache.find, if_pos hk]

/-- **C45 (negation)**, an example: `a = b` with default field `c_d` was requested, `a = b_c` with default
field `d` gets its parse. -/
theorem C45_collision (P : Request → Result Node) (hP : IsBoolParser P) :
    (cachedParse P (cacheAfter P [.request ⟨j!"a = b", some j!"c_d"⟩]) ⟨j!"a = b_c", some ['d']⟩).1
      ≠ P ⟨j!"a = b_c", some ['d']⟩ := by
  have h1 := hP ⟨j!"a = b", some j!"c_d"⟩
  have h2 := hP ⟨j!"a = b_c", some ['d']⟩
  have e1 : parseExpression j!"a = b" (some j!"c_d") =
      .success (.cmp (.field (some ['a'])) (.field (some ['b'])) .eq .string) := by krfl
  have e2 : parseExpression j!"a = b_c" (some ['d']) =
      .success (.cmp (.field (some ['a'])) (.field (some j!"b_c")) .eq .string) := by krfl
  simp only [e1] at h1
  simp only [e2] at h2
  rw [C45_collides P (by decide) h1, h2]
  intro h
  injection h with h
  injection h with h
  injection ‹Node.field _ = Node.field _› with h
  injection h with h
  revert h
  decide

/-- **C45 (negation)**, no default field and an empty one are confused. -/
theorem C45_empty_default (P : Request → Result Node) (hP : IsBoolParser P) :
    (cachedParse P (cacheAfter P [.request ⟨j!"= 5", none⟩]) ⟨j!"= 5", some []⟩).1 ≠ P ⟨j!"= 5", some []⟩ := by
  have h1 := hP ⟨j!"= 5", none⟩
  have h2 := hP ⟨j!"= 5", some []⟩
  have e1 : parseExpression j!"= 5" none = .success (.cmp (.field none) (.unary .integer (.int 5)) .eq .integer) := by
    krfl
  have e2 : parseExpression j!"= 5" (some []) =
      .success (.cmp (.field (some [])) (.unary .integer (.int 5)) .eq .integer) := by krfl
  simp only [e1] at h1
  simp only [e2] at h2
  rw [C45_collides P (by decide) h1, h2]
  intro h
  injection h with h
  injection h with h
  injection h with h
  cases h

/-- A history with an eviction, two default fields and none. -/
example (P : Request → Result Node) :
    (cachedParse P (cacheAfter P [.request ⟨j!"a > 1", none⟩, .request ⟨j!"> 1", some ['a']⟩, .evict (fun _ => false),
      .request ⟨j!"> 1", some ['b']⟩]) ⟨j!"> 1", some ['a']⟩).1 = P ⟨j!"> 1", some ['a']⟩ := by
  refine C45_transparent_partial P _ _ ?_ ?_
  · intro r' hr'
    simp only [requestsOf, List.filterMap_cons, List.filterMap_nil, List.mem_cons, List.not_mem_nil, or_false] at hr'
    rcases hr' with rfl | rfl | rfl <;> intro f hf <;> cases hf <;> decide
  · intro f hf; cases hf; decide

/-! ## C46: what the cache holds -/

/-- **C46**, failures: a request that fails leaves the cache as it was, and without an entry for it. -/
theorem C46_failure (P : Request → Result Node) (ops : List CacheOp) (r : Request) {e : Exn}
    (h : (cachedParse P (cacheAfter P ops) r).1 = .error e) :
    cacheAfter P (ops ++ [.request r]) = cacheAfter P ops ∧
    (cacheAfter P (ops ++ [.request r])).find (cacheKey r) = none ∧ P r = .error e := by
  have e1 : cacheAfter P (ops ++ [.request r]) = (cachedParse P (cacheAfter P ops) r).2 := cacheAfter_append P ops _
  rw [e1]
  rw [cachedParse] at h ⊢
  cases hf : (cacheAfter P ops).find (cacheKey r) with
  | some n => rw [hf] at h; cases h
  | none =>
    rw [hf] at h
    cases hp : P r with
    | ok n => rw [hp] at h; cases h
    | error x => rw [hp] at h; cases h; exact ⟨rfl, hf, rfl⟩

/-- **C46**, entries: after any history every cached entry is the successful result of an earlier request with
that key. -/
theorem C46_entries (P : Request → Result Node) (ops : List CacheOp) {k : JStr} {n : Node}
    (h : (k, n) ∈ cacheAfter P ops) : ∃ r, .request r ∈ ops ∧ cacheKey r = k ∧ P r = .ok n := by
  obtain ⟨r, hr, h1⟩ := sound_after P ops k n h
  refine ⟨r, ?_, h1⟩
  simp only [requestsOf, List.mem_filterMap] at hr
  obtain ⟨o, ho, e⟩ := hr
  cases o with
  | request r' => simp only [Option.some.injEq] at e; rw [← e]; exact ho
  | evict keep => cases e

/-- **C46**, remembered: after a successful request the entry is there until it is evicted, and requests with
that key return it. -/
theorem C46_remembered (P : Request → Result Node) (ops rest : List CacheOp) (r : Request) {n : Node}
    (h : (cachedParse P (cacheAfter P ops) r).1 = .ok n)
    (hkeep : ∀ keep, .evict keep ∈ rest → keep (cacheKey r) = true) :
    (cacheAfter P (ops ++ [.request r] ++ rest)).find (cacheKey r) = some n := by
  induction rest using List.reverseRecOn with
  | nil =>
    rw [List.append_nil, cacheAfter_append, cacheStep]
    rw [cachedParse] at h ⊢
    cases hf : (cacheAfter P ops).find (cacheKey r) with
    | some m => rw [hf] at h; cases h; exact hf
    | none =>
      rw [hf] at h
      cases hp : P r with
      | error x => rw [hp] at h; cases h
      | ok m => rw [hp] at h; cases h; simp [Cache.find]
  | append_singleton rest o ih =>
    have ih := ih (fun keep hk => hkeep keep (by simp [hk]))
    rw [← List.append_assoc, cacheAfter_append]
    generalize cacheAfter P (ops ++ [.request r] ++ rest) = c at ih
    cases o with
    | request r' =>
      rw [cacheStep, cachedParse]
      cases hf : c.find (cacheKey r') with
      | some m => exact ih
      | none =>
        cases hp : P r' with
        | error x => exact ih
        | ok m =>
          simp only [Cache.find]
          rw [if_neg]
          · exact ih
          · intro e; rw [e, ih] at hf; cases hf
    | evict keep =>
      have hk : keep (cacheKey r) = true := hkeep keep (by simp)
      rw [cacheStep]
      clear hkeep h
      induction c with
      | nil => cases ih
      | cons p es ihc =>
        obtain ⟨k', m⟩ := p
        rw [Cache.find] at ih
        by_cases e : k' = cacheKey r
        · rw [if_pos e] at ih
          rw [List.filter_cons_of_pos (by simp only [e]; exact hk), Cache.find, if_pos e]; exact ih
        · rw [if_neg e] at ih
          by_cases hk' : keep k' = true
          · rw [List.filter_cons_of_pos (by exact hk'), Cache.find, if_neg e]; exact ihc ih
          · rw [List.filter_cons_of_neg (by exact hk')]; exact ihc ih

/-- **C46**, size: after an eviction that keeps at most `m` keys, and `j` further requests, there are at most
`m + j` entries. -/
theorem C46_size (P : Request → Result Node) (ops : List CacheOp) (keep : JStr → Bool) (K : List JStr)
    (hK : ∀ k, keep k = true → k ∈ K) (rs : List Request) :
    (cacheAfter P (ops ++ [.evict keep] ++ rs.map .request)).length ≤ K.length + rs.length := by
  induction rs using List.reverseRecOn with
  | nil =>
    rw [List.map_nil, List.append_nil, List.length_nil, Nat.add_zero]
    have hn := keys_after P (ops ++ [.evict keep])
    rw [← List.length_map (f := Prod.fst)]
    refine (List.subperm_of_subset hn ?_).length_le
    intro k hk
    rw [cacheAfter_append, cacheStep] at hk
    obtain ⟨p, hp, rfl⟩ := List.mem_map.mp hk
    exact hK _ (List.mem_filter.mp hp).2
  | append_singleton rs r ih =>
    rw [List.map_append, List.map_singleton, ← List.append_assoc, cacheAfter_append, cacheStep]
    refine (request_length P _ r).trans ?_
    rw [List.length_append, List.length_singleton]
    omega

/-- **C46**, size: a key has at most one entry. -/
theorem C46_one_entry (P : Request → Result Node) (ops : List CacheOp) :
    ((cacheAfter P ops).map Prod.fst).Nodup := keys_after P ops

/-- A failing request between two successful ones. -/
example (P : Request → Result Node) (hP : IsBoolParser P) :
    P ⟨j!"a > 99999999999999999999", none⟩ = .error .numberFormat ∧
    ∃ n, P ⟨j!"a > 1", none⟩ = .ok n ∧
    cacheAfter P [.request ⟨j!"a > 1", none⟩, .request ⟨j!"a > 99999999999999999999", none⟩] =
      [(j!"a > 1_", n)] := by
  have h1 := hP ⟨j!"a > 99999999999999999999", none⟩
  have h2 := hP ⟨j!"a > 1", none⟩
  have e1 : parseExpression j!"a > 99999999999999999999" none = .failure .numberFormat := by krfl
  have e2 : parseExpression j!"a > 1" none =
      .success (.cmp (.field (some ['a'])) (.unary .integer (.int 1)) .gt .integer) := by krfl
  simp only [e1] at h1
  simp only [e2] at h2
  refine ⟨h1, _, h2, ?_⟩
  have hk : ¬ j!"a > 1_" = j!"a > 99999999999999999999_" := by decide
  simp [cacheAfter, cacheStep, cachedParse, Cache.find, h1, h2, cacheKey, hk]

/-! ## C48: construction by several threads -/

/-- Every thread constructs parsers and evaluators, one after another; the history may stop anywhere. -/
def Constructing (h : List Step) : Prop :=
  ∀ t, ∃ cs : List Ctor, threadPuts t h <+: cs.flatMap Ctor.puts

/-- Thread `t` has finished constructing an evaluator in the history `h`. -/
def Finished (t : Nat) (h : List Step) : Prop :=
  ∃ c : Ctor, (c = .arithEvaluator ∨ c = .boolEvaluator) ∧ c.puts.Sublist (threadPuts t h)

theorem thread_put {t : Nat} {h : List Step} {p : Slot × Impl} (hp : p ∈ threadPuts t h) : p ∈ h.map Step.put := by
  simp only [threadPuts, List.mem_map, List.mem_filter] at hp ⊢
  obtain ⟨s, ⟨hs, _⟩, e⟩ := hp
  exact ⟨s, hs, e⟩

theorem constructing_builtin {h : List Step} (hc : Constructing h) : ∀ p ∈ h.map Step.put, p.2 = .builtin := by
  intro p hp
  obtain ⟨s, hs, rfl⟩ := List.mem_map.mp hp
  obtain ⟨cs, hcs⟩ := hc s.thread
  have : s.put ∈ threadPuts s.thread h := by
    simp only [threadPuts, List.mem_map, List.mem_filter]
    exact ⟨s, ⟨hs, by simp⟩, rfl⟩
  obtain ⟨c, _, hm⟩ := List.mem_flatMap.mp (hcs.subset this)
  exact ctor_builtin c _ hm

/-- **C48.** In every interleaving of constructions by any number of threads, once one thread has finished
constructing an evaluator every operator, function and data type is registered and is the library's own,
and it stays so whatever the others go on constructing. -/
theorem C48_registered {h : List Step} (hc : Constructing h) {t : Nat} (hf : Finished t h) :
    (afterHistory h).complete := by
  intro s
  obtain ⟨c, hce, hsub⟩ := hf
  have hin : ∃ i, (s, i) ∈ h.map Step.put := ⟨_, thread_put (hsub.subset (evaluator_covers hce s))⟩
  obtain ⟨i, hi, e⟩ := run_hit Registry.empty hin
  rw [afterHistory, e]
  rw [show i = .builtin from constructing_builtin hc _ hi]

/-- **C48**, permanence: what is registered never disappears. -/
theorem C48_permanent (h h' : List Step) (s : Slot) (hs : afterHistory h s ≠ none) : afterHistory (h ++ h') s ≠ none := by
  rw [afterHistory, List.map_append, run_append]
  rcases run_last (Registry.empty.run (h.map Step.put)) (h'.map Step.put) s with e | ⟨i, _, e⟩
  · rw [e]; exact hs
  · rw [e]; simp

/-- **C48 (negation)**: a custom data type is gone once any thread has constructed an evaluator after its
registration. -/
theorem C48_custom_lost (h h' : List Step) (u : Nat) (ty : DataType) (id : Nat) (hc : Constructing h') {t : Nat}
    (hf : Finished t h') :
    afterHistory (h ++ [⟨u, (.dataType ty, .custom id)⟩] ++ h') (.dataType ty) = some .builtin := by
  obtain ⟨c, hce, hsub⟩ := hf
  rw [afterHistory, List.map_append, run_append]
  obtain ⟨i, hi, e⟩ := run_hit (Registry.empty.run ((h ++ [(⟨u, (.dataType ty, .custom id)⟩ : Step)]).map Step.put))
    (⟨_, thread_put (hsub.subset (evaluator_covers hce (.dataType ty)))⟩ : ∃ i, (Slot.dataType ty, i) ∈ h'.map Step.put)
  rw [e, show i = .builtin from constructing_builtin hc _ hi]

/-- **C48** (partial), custom types: a custom data type stays in force as long as only parsers are constructed.
Missing: evaluators, see `C48_custom_lost`. -/
theorem C48_custom_partial (h h' : List Step) (u : Nat) (ty : DataType) (id : Nat)
    (hc : ∀ t, ∃ cs : List Ctor, (∀ c ∈ cs, c = .boolParser ∨ c = .cachedParser) ∧
      threadPuts t h' <+: cs.flatMap Ctor.puts) :
    afterHistory (h ++ [⟨u, (.dataType ty, .custom id)⟩] ++ h') (.dataType ty) = some (.custom id) := by
  rw [afterHistory, List.map_append, run_append]
  have hno : ∀ i, (Slot.dataType ty, i) ∉ h'.map Step.put := by
    intro i hi
    obtain ⟨s, hs, e⟩ := List.mem_map.mp hi
    obtain ⟨cs, hcs, hpre⟩ := hc s.thread
    have : s.put ∈ threadPuts s.thread h' := by
      simp only [threadPuts, List.mem_map, List.mem_filter]
      exact ⟨s, ⟨hs, by simp⟩, rfl⟩
    obtain ⟨c, hc', hm⟩ := List.mem_flatMap.mp (hpre.subset this)
    rw [e] at hm
    have hall : ∀ c : Ctor, c = .boolParser ∨ c = .cachedParser →
        c.puts.all (fun p => match p.1 with | .operator _ => true | _ => false) = true := by
      rintro c (rfl | rfl) <;> rfl
    have := List.all_eq_true.mp (hall c (hcs c hc')) _ hm
    cases this
  rcases run_last (Registry.empty.run ((h ++ [(⟨u, (.dataType ty, .custom id)⟩ : Step)]).map Step.put)) (h'.map Step.put)
    (.dataType ty) with e | ⟨i, hi, _⟩
  · rw [e, List.map_append, run_append]
    simp [Registry.run, Registry.put]
  · exact absurd hi (hno i)

theorem Finished.mono {t : Nat} {h h' : List Step} (hf : Finished t h) (hp : h <+: h') : Finished t h' := by
  obtain ⟨c, hce, hsub⟩ := hf
  obtain ⟨x, rfl⟩ := hp
  refine ⟨c, hce, hsub.trans ?_⟩
  rw [threadPuts, threadPuts, List.filter_append, List.map_append]
  exact List.sublist_append_left _ _

/-- **C48**, evaluations: a thread that has finished constructing an evaluator evaluates every expression as
documented, at any moment and whatever the other threads construct in the meantime. `h` is the history when the
evaluation starts, `now k` the history at its `k`-th read of the registries; between two reads anything may have
been written by constructors. -/
theorem C48_evaluates {h : List Step} {t : Nat} (hf : Finished t h) (now : Nat → List Step)
    (hc : ∀ k, Constructing (now k)) (hp : ∀ k, h <+: now k) (U : Users) (env : Env) (d : Data) (n : Node) :
    outcomeAt (evalBoolL ⟨fun k => afterHistory (now k), U.obj, U.compareOther⟩ env d n) 0 = evalBool env d n :=
  refines_bool (fun k => C48_registered (hc k) (hf.mono (hp k))) env d n 0

/-- **C48**, evaluations of arithmetic expressions. -/
theorem C48_evaluates_arith {h : List Step} {t : Nat} (hf : Finished t h) (now : Nat → List Step)
    (hc : ∀ k, Constructing (now k)) (hp : ∀ k, h <+: now k) (U : Users) (env : Env) (d : Data) (n : Node) :
    outcomeAt (evalArithL ⟨fun k => afterHistory (now k), U.obj, U.compareOther⟩ env d n) 0 = evalArith env d n :=
  refines_arith (fun k => C48_registered (hc k) (hf.mono (hp k))) env d n 0

/-- **C48**, parsing: once a parser was constructed, in any interleaving, the operator that the parser finds for
an operator token is the one the token stands for. -/
theorem C48_symbols {h : List Step} {t : Nat} {c : Ctor} (hf : c.puts.Sublist (threadPuts t h)) {x : JStr} {k : TK}
    (hk : (x, k) ∈ Spec.tokenTable) :
    (∀ o, k = .cmp o → operatorOf (afterHistory h) x = o.slot) ∧
    (∀ o, k = .arith o → operatorOf (afterHistory h) x = o.slot) ∧
    (k = .cAll → operatorOf (afterHistory h) x = .containsAll) ∧
    (k = .cAny → operatorOf (afterHistory h) x = .containsAny) := by
  have hall : ∀ o, (afterHistory h (.operator o)).isSome = true := by
    intro o
    have hin : (Slot.operator o, Impl.builtin) ∈ c.puts := by cases c <;> cases o <;> decide
    obtain ⟨i, _, e⟩ := run_hit Registry.empty
      (⟨_, thread_put (hf.subset hin)⟩ : ∃ i, (Slot.operator o, i) ∈ h.map Step.put)
    rw [afterHistory, e]; rfl
  have hfind : ∀ ops, findSymbol (afterHistory h) ops x = findSymbol (fun _ => some .builtin) ops x := by
    intro ops
    rw [findSymbol, findSymbol, List.filter_eq_self.mpr (fun o _ => hall o)]
    simp
  have hreg : operatorOf (afterHistory h) x = operatorOf (fun _ => some .builtin) x := by
    simp only [operatorOf, hfind]
  rw [hreg]
  have hcheck : tokenTable.all (fun p => match p.2 with
      | .cmp c => operatorOf (fun _ => some .builtin) p.1 == c.slot
      | .arith c => operatorOf (fun _ => some .builtin) p.1 == c.slot
      | .cAll => operatorOf (fun _ => some .builtin) p.1 == .containsAll
      | .cAny => operatorOf (fun _ => some .builtin) p.1 == .containsAny
      | _ => true) = true := by krfl
  have h1 := List.all_eq_true.mp hcheck _ hk
  refine ⟨?_, ?_, ?_, ?_⟩
  · rintro o rfl; simpa using h1
  · rintro o rfl; simpa using h1
  · rintro rfl; simpa using h1
  · rintro rfl; simpa using h1

/-- Comparing texts through a user's STRING type. -/
theorem custom_compare {L : Live} {id : Nat} (hop : ∀ k, L.hist k (.operator .equals) = some .builtin)
    (hty : ∀ k, L.hist k (.dataType .string) = some (.custom id)) (g : JStr → JStr)
    (hvalid : ∀ s, (L.obj id).valid (.str s) = .ok true)
    (hvalue : ∀ s, (L.obj id).value (.str s) = .ok (some (.str (g s)))) (a b : JStr) :
    Refines (logicalCmpL L .eq (.str a) .string (.str b) .string) (.ok (cmpStr (g a) (g b) == .eq)) := by
  have hread : ∀ (s : Slot) i, (∀ k, L.hist k s = i) → Refines (readSlot L s) (.ok i) := by
    intro s i h k
    show Except.map Prod.fst (Except.ok (L.hist k s, k + 1)) = _
    rw [h k]; rfl
  have ho : Refines (needOperator L .equals) (.ok ()) := refines_bind_ok (hread _ _ hop) (refines_pure _)
  have ht : Refines (typeObj L .string) (.ok (L.obj id)) := refines_bind_ok (hread _ _ hty) (refines_pure _)
  have hv : ∀ s, Refines (getValueL L .string (.str s)) (.ok (.str (g s))) := fun s =>
    refines_bind_ok ht (by rw [hvalue]; exact refines_pure _)
  have hb : Refines (isValidL L .string (.str a)) (.ok true) := refines_bind_ok ht (by rw [hvalid]; exact refines_pure _)
  refine refines_bind_ok ho ?_
  refine refines_bind_ok hb ?_
  refine refines_bind_ok ho ?_
  refine refines_bind_ok (a := cmpStr (g a) (g b)) ?_ (refines_pure _)
  exact refines_bind_ok (hv a) (refines_bind_ok (hv b) (refines_pure _))

/-- Two threads taking turns: thread 0 constructs an evaluator, thread 1 is in the middle of its own. -/
example : (afterHistory ((newArithEvaluator.zip newBoolEvaluator).flatMap fun p => [⟨0, p.1⟩, ⟨1, p.2⟩])).complete := by
  refine C48_registered (t := 0) ?_ ⟨.arithEvaluator, .inl rfl, ?_⟩
  · intro t
    by_cases h0 : t = 0
    · subst h0
      exact ⟨[.arithEvaluator], by decide⟩
    · by_cases h1 : t = 1
      · subst h1
        exact ⟨[.boolEvaluator], by decide⟩
      · refine ⟨[], ?_⟩
        have : threadPuts t ((newArithEvaluator.zip newBoolEvaluator).flatMap fun p => [⟨0, p.1⟩, ⟨1, p.2⟩]) = [] := by
          rw [threadPuts, List.map_eq_nil_iff, List.filter_eq_nil_iff]
          intro s hs
          obtain ⟨p, _, hp⟩ := List.mem_flatMap.mp hs
          simp only [List.mem_cons, List.not_mem_nil, or_false] at hp
          rcases hp with rfl | rfl
          · simpa using fun e => h0 e.symm
          · simpa using fun e => h1 e.symm
        rw [this]; exact List.nil_prefix
  · decide

/-- Thread 0 has an evaluator; while it evaluates, thread 1 constructs its own, one step between any two reads. -/
example (U : Users) (env : Env) (d : Data) (n : Node) :
    outcomeAt (evalBoolL ⟨fun k => afterHistory (newBoolEvaluator.map (Step.mk 0) ++
      (newArithEvaluator.take k).map (Step.mk 1)), U.obj, U.compareOther⟩ env d n) 0 = evalBool env d n := by
  refine C48_evaluates (h := newBoolEvaluator.map (Step.mk 0)) (t := 0) ⟨.boolEvaluator, .inr rfl, by decide⟩ _ ?_
    (fun k => List.prefix_append _ _) U env d n
  intro k t
  have hput : ∀ (u : Nat) (ps : List (Slot × Impl)), threadPuts t (ps.map (Step.mk u)) = if t = u then ps else [] := by
    intro u ps
    rw [threadPuts, List.filter_map]
    by_cases htu : t = u
    · subst htu; simp [Function.comp_def]
    · rw [if_neg htu]
      have : (u == t) = false := by simpa using fun e => htu e.symm
      simp [Function.comp_def, this]
  have happ : threadPuts t (newBoolEvaluator.map (Step.mk 0) ++ (newArithEvaluator.take k).map (Step.mk 1)) =
      threadPuts t (newBoolEvaluator.map (Step.mk 0)) ++ threadPuts t ((newArithEvaluator.take k).map (Step.mk 1)) := by
    simp [threadPuts]
  rw [happ, hput, hput]
  by_cases h0 : t = 0
  · subst h0; exact ⟨[.boolEvaluator], by simp [Ctor.puts]⟩
  · by_cases h1 : t = 1
    · subst h1
      exact ⟨[.arithEvaluator], by simpa [Ctor.puts] using List.take_prefix _ _⟩
    · exact ⟨[], by simp [h0, h1]⟩

/-! ## C47: evaluation has no memory -/

/-- No data type was registered. -/
def NoCustom (es : List Event) : Prop := ∀ t id, Event.register t id ∉ es

/-- An evaluator was constructed. -/
def HasEvaluator (es : List Event) : Prop :=
  Event.construct .arithEvaluator ∈ es ∨ Event.construct .boolEvaluator ∈ es

/-- The requests of a history that went to the caching parser. -/
def cachedRequests (es : List Event) : List Request :=
  es.filterMap fun e => match e with
    | .evaluate .cached r _ => some r
    | .evaluateArith .cached x _ => some ⟨x, none⟩
    | _ => none

theorem after_append (P : Request → Result Node) (es : List Event) (e : Event) :
    World.after P (es ++ [e]) = (World.after P es).step P e := by
  rw [World.after, World.after, List.foldl_append]; rfl

theorem reg_builtin (P : Request → Result Node) {es : List Event} (h : NoCustom es) (s : Slot) :
    (World.after P es).reg s = none ∨ (World.after P es).reg s = some .builtin := by
  induction es using List.reverseRecOn with
  | nil => exact .inl rfl
  | append_singleton es e ih =>
    have ih := ih (fun t id hm => h t id (by simp [hm]))
    rw [after_append]
    cases e with
    | construct c =>
      rcases run_last (World.after P es).reg c.puts s with e | ⟨i, hi, e⟩
      · simp only [World.step]; rw [e]; exact ih
      · simp only [World.step]; rw [e, show i = .builtin from ctor_builtin c _ hi]; exact .inr rfl
    | register t id => exact absurd (by simp) (h t id)
    | _ => exact ih

theorem reg_complete (P : Request → Result Node) {es : List Event} (h : NoCustom es) (he : HasEvaluator es) :
    (World.after P es).reg.complete := by
  induction es using List.reverseRecOn with
  | nil => rcases he with h | h <;> cases h
  | append_singleton es e ih =>
    have hn : NoCustom es := fun t id hm => h t id (by simp [hm])
    intro s
    rw [after_append]
    by_cases hin : HasEvaluator es
    · have ih := ih hn hin
      cases e with
      | construct c =>
        rcases run_last (World.after P es).reg c.puts s with e | ⟨i, hi, e⟩
        · simp only [World.step]; rw [e]; exact ih s
        · simp only [World.step]; rw [e, show i = .builtin from ctor_builtin c _ hi]
      | register t id => exact absurd (by simp) (h t id)
      | _ => exact ih s
    · have hc : ∃ c, e = .construct c ∧ (c = .arithEvaluator ∨ c = .boolEvaluator) := by
        rcases he with he | he <;> rcases List.mem_append.mp he with hm | hm
        · exact absurd (.inl hm) hin
        · exact ⟨_, (List.mem_singleton.mp hm).symm, .inl rfl⟩
        · exact absurd (.inr hm) hin
        · exact ⟨_, (List.mem_singleton.mp hm).symm, .inr rfl⟩
      obtain ⟨c, rfl, hce⟩ := hc
      obtain ⟨i, hi, e⟩ := run_hit (World.after P es).reg ⟨_, evaluator_covers hce s⟩
      simp only [World.step]
      rw [e, show i = .builtin from ctor_builtin c _ hi]

theorem cache_sound (P : Request → Result Node) (es : List Event) : Sound P (cachedRequests es) (World.after P es).cache := by
  induction es using List.reverseRecOn with
  | nil => intro k n h; cases h
  | append_singleton es e ih =>
    rw [after_append]
    have hsub : ∀ r ∈ cachedRequests es, r ∈ cachedRequests (es ++ [e]) := by
      intro r hr
      rw [cachedRequests, List.filterMap_append]
      exact List.mem_append_left _ hr
    have hm := ih.mono hsub
    cases e with
    | construct c => exact hm
    | register t id => exact hm
    | evaluate src r d =>
      cases src with
      | plain => exact hm
      | cached =>
        have : cachedRequests (es ++ [.evaluate .cached r d]) = cachedRequests es ++ [r] := by simp [cachedRequests]
        rw [this]; exact sound_request ih r
    | evaluateArith src x d =>
      cases src with
      | plain => exact hm
      | cached =>
        have : cachedRequests (es ++ [.evaluateArith .cached x d]) = cachedRequests es ++ [⟨x, none⟩] := by
          simp [cachedRequests]
        rw [this]; exact sound_request ih _
    | evict keep =>
      intro k n hk
      simp only [World.step, List.mem_filter] at hk
      exact hm k n hk.1

theorem parse_no_memory (P : Request → Result Node) (es : List Event) (src : Source) (r : Request)
    (hcol : src = .cached → Distinguishable r ∧ ∀ r' ∈ cachedRequests es, Distinguishable r') :
    ((World.after P es).parse P src r).1 = P r := by
  cases src with
  | plain => rfl
  | cached =>
    obtain ⟨hr, hrs⟩ := hcol rfl
    exact transparent (cache_sound P es) fun r' hr' hk => by rw [key_inj (hrs r' hr') hr hk]

/-- **C47.** Once an evaluator exists, the result of an evaluation is a function of expression, default field
and data: whatever was constructed, evaluated, cached and evicted before, by whichever evaluator, with
whichever parser. Evaluators on a caching parser need default fields the cache can tell apart (C45), and no
data type may have been registered by the user (C48). -/
theorem C47_no_memory (P : Request → Result Node) (es : List Event) (hn : NoCustom es) (he : HasEvaluator es)
    (src : Source) (r : Request)
    (hcol : src = .cached → Distinguishable r ∧ ∀ r' ∈ cachedRequests es, Distinguishable r') (U : Users) (env : Env)
    (d : Data) : (World.after P es).evaluate P U env src r d = (P r >>= evalBool env d) := by
  rw [World.evaluate, parse_no_memory P es src r hcol]
  congr 1
  funext n
  exact refines_bool (fun _ => reg_complete P hn he) env d n 0

/-- **C47**, arithmetic evaluators; they never have a default field. -/
theorem C47_no_memory_arith (P : Request → Result Node) (es : List Event) (hn : NoCustom es) (he : HasEvaluator es)
    (src : Source) (expr : JStr) (hcol : src = .cached → ∀ r' ∈ cachedRequests es, Distinguishable r') (U : Users)
    (env : Env) (d : Data) :
    (World.after P es).evaluateArith P U env src expr d = (P ⟨expr, none⟩ >>= evalArith env d) := by
  rw [World.evaluateArith, parse_no_memory P es src ⟨expr, none⟩ (fun h => ⟨fun f hf => (by cases hf), hcol h⟩)]
  congr 1
  funext n
  exact refines_arith (fun _ => reg_complete P hn he) env d n 0

/-- **C47**, the same value as the API: with the modelled parser this is what `evaluate` says. -/
theorem C47_is_evaluate (P : Request → Result Node) (hP : IsBoolParser P) (es : List Event) (hn : NoCustom es)
    (he : HasEvaluator es) (src : Source) (r : Request)
    (hcol : src = .cached → Distinguishable r ∧ ∀ r' ∈ cachedRequests es, Distinguishable r') (U : Users) (env : Env)
    (d : Data) {b : Bool} (hb : evaluate env r.expr d r.df = .success b) :
    (World.after P es).evaluate P U env src r d = .ok b := by
  rw [C47_no_memory P es hn he src r hcol U]
  have h := hP r
  rw [evaluate] at hb
  cases hp : parseExpression r.expr r.df with
  | success n =>
    rw [hp] at h hb
    simp only at h
    rw [Outcome.andThen] at hb
    rw [h, ok_bind]
    cases hev : evalBool env d n with
    | ok b' => rw [hev] at hb; cases hb; rfl
    | error x => rw [hev] at hb; cases hb
  | failure x => rw [hp] at hb; cases hb
  | syntaxError => rw [hp] at hb; cases hb

example (P : Request → Result Node) (U : Users) (env : Env) (d d' : Data) :
    (World.after P [.construct .cachedParser, .construct .boolEvaluator, .evaluate .cached ⟨j!"a > 1", none⟩ d',
      .construct .arithEvaluator, .evict (fun _ => true), .evaluateArith .cached j!"a + 1" d]).evaluate P U env .cached
        ⟨j!"a > 1", none⟩ d = (P ⟨j!"a > 1", none⟩ >>= evalBool env d) := by
  refine C47_no_memory P _ ?_ (.inr (by simp)) .cached _ (fun _ => ⟨fun f hf => (by cases hf), ?_⟩) U env d
  · intro t id h; simp at h
  · intro r' hr' f hf
    simp only [cachedRequests, List.filterMap_cons, List.filterMap_nil, List.mem_cons, List.not_mem_nil, or_false] at hr'
    rcases hr' with rfl | rfl <;> cases hf

/-! ## C48: data types of the user -/

/-- The world of a program that constructed an evaluator, registered its own STRING type and did anything else
but construct evaluators or register types. -/
def Customised (P : Request → Result Node) (id : Nat) (w : World) : Prop :=
  ∃ es es', HasEvaluator es ∧
    (∀ e ∈ es', (∀ c, e = .construct c → c = .boolParser ∨ c = .cachedParser) ∧ ∀ t i, e ≠ .register t i) ∧
    w = World.after P (es ++ [.register .string id] ++ es')

theorem step_operator (P : Request → Result Node) (w : World) (e : Event) (o : Operator)
    (h : w.reg (.operator o) = some .builtin) : (w.step P e).reg (.operator o) = some .builtin := by
  cases e with
  | construct c =>
    rcases run_last w.reg c.puts (.operator o) with e | ⟨i, hi, e⟩
    · simp only [World.step]; rw [e]; exact h
    · simp only [World.step]; rw [e, show i = .builtin from ctor_builtin c _ hi]
  | register t id =>
    simp only [World.step, BoolParser.register, Registry.run, List.foldl_cons, List.foldl_nil, Registry.put]
    rw [if_neg (by simp)]; exact h
  | _ => exact h

theorem reg_operator (P : Request → Result Node) {es : List Event} (he : HasEvaluator es) (o : Operator) :
    (World.after P es).reg (.operator o) = some .builtin := by
  induction es using List.reverseRecOn with
  | nil => rcases he with h | h <;> cases h
  | append_singleton es e ih =>
    rw [after_append]
    by_cases hin : HasEvaluator es
    · exact step_operator P _ e o (ih hin)
    · have hc : ∃ c, e = .construct c ∧ (c = .arithEvaluator ∨ c = .boolEvaluator) := by
        rcases he with he | he <;> rcases List.mem_append.mp he with hm | hm
        · exact absurd (.inl hm) hin
        · exact ⟨_, (List.mem_singleton.mp hm).symm, .inl rfl⟩
        · exact absurd (.inr hm) hin
        · exact ⟨_, (List.mem_singleton.mp hm).symm, .inr rfl⟩
      obtain ⟨c, rfl, hce⟩ := hc
      obtain ⟨i, hi, e⟩ := run_hit (World.after P es).reg ⟨_, evaluator_covers hce (.operator o)⟩
      simp only [World.step]
      rw [e, show i = .builtin from ctor_builtin c _ hi]

theorem HasEvaluator.append {es es' : List Event} (h : HasEvaluator es) : HasEvaluator (es ++ es') :=
  h.imp (List.mem_append_left _) (List.mem_append_left _)

theorem customised_reg {P : Request → Result Node} {id : Nat} {w : World} (hw : Customised P id w) :
    w.reg (.operator .equals) = some .builtin ∧ w.reg (.dataType .string) = some (.custom id) := by
  obtain ⟨es, es', he, hes', rfl⟩ := hw
  refine ⟨reg_operator P he.append.append _, ?_⟩
  induction es' using List.reverseRecOn with
  | nil => rw [List.append_nil, after_append]; simp [World.step, BoolParser.register, Registry.run, Registry.put]
  | append_singleton es' e ih =>
    have ih := ih (fun e he => hes' e (by simp [he]))
    obtain ⟨h1, h2⟩ := hes' e (by simp)
    rw [← List.append_assoc, after_append]
    cases e with
    | construct c =>
      rcases run_last (World.after P (es ++ [.register .string id] ++ es')).reg c.puts (.dataType .string) with
        e | ⟨i, hi, _⟩
      · simp only [World.step]; rw [e]; exact ih
      · exfalso
        have : ∀ i, (Slot.dataType .string, i) ∉ c.puts := by
          intro i
          rcases h1 c rfl with rfl | rfl <;> cases i <;> simp [Ctor.puts, newBoolParser, operatorInit]
        exact this i hi
    | register t i => exact absurd rfl (h2 t i)
    | _ => exact ih

/-- **C48**, custom types: a STRING type of the user that compares texts by what `g` makes of them is used by
comparisons of texts, as long as no evaluator is constructed. -/
theorem C48_custom_used (P : Request → Result Node) (hP : IsBoolParser P) (id : Nat) {w : World}
    (hw : Customised P id w) (U : Users) (g : JStr → JStr) (hvalid : ∀ s, (U.obj id).valid (.str s) = .ok true)
    (hvalue : ∀ s, (U.obj id).value (.str s) = .ok (some (.str (g s)))) (env : Env) (a b : JStr)
    (ha : getDataType (.str a) = .string) (hb : getDataType (.str b) = .string) :
    w.evaluate P U env .plain ⟨j!"x = y", none⟩ [(['x'], .str a), (['y'], .str b)] = .ok (decide (g a = g b)) := by
  have h1 := hP ⟨j!"x = y", none⟩
  have e1 : parseExpression j!"x = y" none =
      .success (.cmp (.field (some ['x'])) (.field (some ['y'])) .eq .string) := by krfl
  simp only [e1] at h1
  obtain ⟨h2, h3⟩ := customised_reg hw
  have hL := custom_compare (L := w.live U) (id := id) (fun _ => h2) (fun _ => h3) g hvalid hvalue a b
  rw [World.evaluate, World.parse, h1, ok_bind]
  have hn : Refines (evalBoolL (w.live U) env [(['x'], .str a), (['y'], .str b)]
      (.cmp (.field (some ['x'])) (.field (some ['y'])) .eq .string)) (.ok (cmpStr (g a) (g b) == .eq)) := by
    rw [evalBoolL]
    have hx : Refines (operandValueL (w.live U) env [(['x'], .str a), (['y'], .str b)] (.field (some ['x']))
        (evalBoolL (w.live U) env [(['x'], .str a), (['y'], .str b)] (.field (some ['x'])))) (.ok (some (.str a))) :=
      refines_lift (lookupField (some ['x']) [(['x'], .str a), (['y'], .str b)])
    have hy : Refines (operandValueL (w.live U) env [(['x'], .str a), (['y'], .str b)] (.field (some ['y']))
        (evalBoolL (w.live U) env [(['x'], .str a), (['y'], .str b)] (.field (some ['y'])))) (.ok (some (.str b))) :=
      refines_lift (lookupField (some ['y']) [(['x'], .str a), (['y'], .str b)])
    refine refines_bind_ok hx ?_
    refine refines_bind_ok (a := false) (refines_lift _) ?_
    refine refines_bind_ok (a := .str a) (refines_pure _) ?_
    refine refines_bind_ok (a := .str b) (refines_bind_ok hy (refines_pure _)) ?_
    rw [ha, hb]; exact hL
  rw [hn 0]
  have := evalEq_text (w := .str (g b)) (x := .str (g a)) (by simp) (by simp) .string
  have h4 : evalEq .eq (.str (g b)) .string (.str (g a)) .string = .ok (cmpStr (g b) (g a) == .eq) := rfl
  rw [h4] at this
  show _ = Except.ok (decide ((Value.str (g a)).text = (Value.str (g b)).text))
  rw [← this, cmpStr_swap (g b) (g a)]
  cases cmpStr (g b) (g a) <;> rfl

/-- **C48 (negation)**: constructing any evaluator undoes every registration, whatever happened before. -/
theorem C48_custom_reset (P : Request → Result Node) (es : List Event) {c : Ctor}
    (hc : c = .arithEvaluator ∨ c = .boolEvaluator) (U : Users) (env : Env) (r : Request) (d : Data) :
    (World.after P (es ++ [.construct c])).evaluate P U env .plain r d = (P r >>= evalBool env d) := by
  have hreg : (World.after P (es ++ [.construct c])).reg.complete := by
    intro s
    obtain ⟨i, hi, e⟩ := run_hit (World.after P es).reg ⟨_, evaluator_covers hc s⟩
    rw [after_append]
    simp only [World.step]
    rw [e, show i = .builtin from ctor_builtin c _ hi]
  rw [World.evaluate]
  congr 1
  funext n
  exact refines_bool (fun _ => hreg) env d n 0

/-- A STRING type that ignores case: `bob` equals `BOB` until the next evaluator is constructed. -/
example (P : Request → Result Node) (hP : IsBoolParser P) (env : Env) (cmp : Comp → Comp → Result Ordering) :
    let U : Users := ⟨fun _ => ⟨fun _ => .ok true, fun v => .ok (some (.str (lower v.text)))⟩, cmp⟩
    let es : List Event := [.construct .boolParser, .construct .boolEvaluator, .register .string 7]
    let d : Data := [(['x'], .str j!"bob"), (['y'], .str j!"BOB")]
    (World.after P es).evaluate P U env .plain ⟨j!"x = y", none⟩ d = .ok true ∧
    (World.after P (es ++ [.construct .arithEvaluator])).evaluate P U env .plain ⟨j!"x = y", none⟩ d = .ok false := by
  intro U es d
  constructor
  · exact C48_custom_used P hP 7 ⟨[.construct .boolParser, .construct .boolEvaluator], [], .inr (by simp), by simp, rfl⟩
      U lower (fun _ => rfl) (fun _ => rfl) env j!"bob" j!"BOB" (by krfl) (by krfl)
  · rw [C48_custom_reset P es (.inl rfl)]
    have h1 := hP ⟨j!"x = y", none⟩
    have e1 : parseExpression j!"x = y" none =
        .success (.cmp (.field (some ['x'])) (.field (some ['y'])) .eq .string) := by krfl
    simp only [e1] at h1
    rw [h1, ok_bind]
    krfl

end BoolParser
