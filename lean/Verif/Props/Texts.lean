import Verif.Lemmas.Kept
import Verif.Lemmas.Written
import Verif.Lemmas.Checker
import Verif.Props.Grammar
/-!
# Properties of all texts, accepted or not, grouped as expected or not

C59 what an evaluation depends on, C17 (every text) which data matter, C60 more data keep an answer, C62 renaming
fields, C41 (every text) the spelling of keywords.

A text is known here only through the lexemes it is cut into (`Spec.Cut`, `Verif/Spec/Tokens.lean`). The names it
mentions are described in `Verif/Spec/Mentions.lean`.
-/

namespace BoolParser
open Spec

theorem cut_texts {s : JStr} {ts : List JStr} (h : Cut s ts) {t : Token} (ht : t ∈ lex s) :
    t.text ∈ ts ∧ Classified t.text t.kind := by
  refine ⟨?_, valid_classified (lex_valid _ s (Nat.le_refl _) t ht)⟩
  rw [← cut_unique h]; exact List.mem_map_of_mem ht

/-! ## C59 What an evaluation depends on -/

theorem days_lexeme {t : Token} (h : Classified t.text t.kind) (hk : t.kind = .fn .daysElapsed) :
    t.text = j!"DAYS_ELAPSED" ∨ t.text = j!"days_elapsed" := by
  have key : ∀ p ∈ tokenTable, p.2 = .fn .daysElapsed → p.1 = j!"DAYS_ELAPSED" ∨ p.1 = j!"days_elapsed" := by
    decide +kernel
  rw [hk] at h
  cases h with
  | table h => exact key _ h rfl

theorem pow_lexeme {t : Token} (h : Classified t.text t.kind) (hk : t.kind = .arith .exp) : t.text = j!"^" := by
  have key : ∀ p ∈ tokenTable, p.2 = .arith .exp → p.1 = j!"^" := by decide +kernel
  rw [hk] at h
  cases h with
  | table h => exact key _ h rfl

theorem callFn_env {env env' : Env} {f : FuncType} (h : f = .daysElapsed → env.today = env'.today) :
    callFn env f = callFn env' f := by
  have : evalFn env f = evalFn env' f := by
    funext items
    cases f with
    | daysElapsed => simp only [evalFn, daysFn, h rfl]
    | _ => rfl
  funext items
  rw [callFn, callFn, this]

theorem arithBinary_env {env env' : Env} {o : ArithOp} (h : o = .exp → env.powL = env'.powL ∧ env.powD = env'.powD) :
    arithBinary env o = arithBinary env' o := by
  have : evalArithOp env o = evalArithOp env' o := by
    funext a b c d
    cases o with
    | exp => simp only [evalArithOp, (h rfl).1, (h rfl).2]
    | _ => rfl
  funext a b c d
  rw [arithBinary, arithBinary, this]

theorem env_outcome {s : JStr} {ts : List JStr} (h : Cut s ts) {env env' : Env}
    (h1 : (j!"DAYS_ELAPSED" ∈ ts ∨ j!"days_elapsed" ∈ ts) → env.today = env'.today)
    (h2 : j!"^" ∈ ts → env.powL = env'.powL ∧ env.powD = env'.powD) (d : Data) (df : Option JStr) :
    evaluate env s d df = evaluate env' s d df ∧ evaluateArith env s d = evaluateArith env' s d := by
  have key : ∀ {b : Bool}, List.Forall₂ (fun t t' => TokOk d d b t t' ∧ TokEnv env env' t) (lex s) (lex s) := by
    intro b
    refine forall2_diag (fun t ht => ⟨.same t rfl (fun _ _ _ _ _ _ => rfl), ?_, ?_⟩)
    · intro f hk
      refine callFn_env ?_
      rintro rfl
      obtain ⟨h3, h4⟩ := cut_texts h ht
      rcases days_lexeme h4 hk with h5 | h5
      · exact h1 (.inl (h5 ▸ h3))
      · exact h1 (.inr (h5 ▸ h3))
    · intro o hk
      refine arithBinary_env ?_
      rintro rfl
      obtain ⟨h3, h4⟩ := cut_texts h ht
      exact h2 (pow_lexeme h4 hk ▸ h3)
  refine ⟨evaluate_tok ?_ (.same _ rfl (fun _ _ _ _ _ _ => rfl)) key,
    evaluateArith_tok (.same _ rfl (fun _ _ _ _ _ _ => rfl)) key⟩
  cases df with
  | none => exact .none
  | some f => exact .some ⟨rfl, rfl⟩

/-- **C59.** The outcome of evaluating a text depends on nothing but the text, the data and the default field, if the
text contains neither DAYS_ELAPSED nor `^`. -/
theorem C59_pure {s : JStr} {ts : List JStr} (h : Cut s ts) (h1 : j!"DAYS_ELAPSED" ∉ ts) (h2 : j!"days_elapsed" ∉ ts)
    (h3 : j!"^" ∉ ts) (env env' : Env) (d : Data) (df : Option JStr) :
    evaluate env s d df = evaluate env' s d df ∧ evaluateArith env s d = evaluateArith env' s d :=
  env_outcome h (fun h => absurd h (by simp [h1, h2])) (fun h => absurd h h3) d df

/-- **C59**, the clock: it matters only if DAYS_ELAPSED occurs. -/
theorem C59_clock {s : JStr} {ts : List JStr} (h : Cut s ts) (h1 : j!"DAYS_ELAPSED" ∉ ts) (h2 : j!"days_elapsed" ∉ ts)
    (env : Env) (today : Date) (d : Data) (df : Option JStr) :
    evaluate env s d df = evaluate { env with today := today } s d df ∧
    evaluateArith env s d = evaluateArith { env with today := today } s d :=
  env_outcome (env := env) (env' := { env with today := today }) h (fun h => absurd h (by simp [h1, h2])) (fun _ => ⟨rfl, rfl⟩) d df

/-- **C59**, the power function of the platform: it matters only if `^` occurs. -/
theorem C59_power {s : JStr} {ts : List JStr} (h : Cut s ts) (h1 : j!"^" ∉ ts) (env : Env) (powL : Int → Int → Dbl)
    (powD : Dec → Dec → Dbl) (d : Data) (df : Option JStr) :
    evaluate env s d df = evaluate { env with powL := powL, powD := powD } s d df ∧
    evaluateArith env s d = evaluateArith { env with powL := powL, powD := powD } s d :=
  env_outcome (env := env) (env' := { env with powL := powL, powD := powD }) h (fun _ => rfl) (fun h => absurd h h1) d df

/-- `(a + 2) > 5 AND NOT (b IN (1, 2))`: a text with neither. -/
example (env env' : Env) (d : Data) : evaluate env j!"(a + 2) > 5 AND NOT (b IN (1, 2))" d none =
    evaluate env' j!"(a + 2) > 5 AND NOT (b IN (1, 2))" d none :=
  (C59_pure (ts := [j!"(", j!"a", j!"+", j!"2", j!")", j!">", j!"5", j!"AND", j!"NOT", j!"(", j!"b", j!"IN", j!"(", j!"1",
    j!",", j!"2", j!")", j!")"]) (cut_of (by krfl)) (by decide) (by decide) (by decide) env env' d none).1

/-- With DAYS_ELAPSED the outcome does depend on the clock. -/
example (powL : Int → Int → Dbl) (powD : Dec → Dec → Dbl) (d : Data) :
    evaluateArith ⟨⟨2024, 1, 2⟩, powL, powD⟩ j!"DAYS_ELAPSED(2024-01-01)" d ≠
    evaluateArith ⟨⟨2024, 1, 3⟩, powL, powD⟩ j!"DAYS_ELAPSED(2024-01-01)" d := by
  have h : parseExpression j!"DAYS_ELAPSED(2024-01-01)" none = .success (.func .daysElapsed [.unary .date (.date ⟨2024, 1, 1⟩)]) := by
    krfl
  rw [evaluateArith, evaluateArith, h]
  intro h
  injection h with h
  injection h with h
  revert h
  exact (by decide : ¬ ((epochDay ⟨2024, 1, 2⟩ - epochDay ⟨2024, 1, 1⟩ : Int) = epochDay ⟨2024, 1, 3⟩ - epochDay ⟨2024, 1, 1⟩))

/-! ## C17 for every text -/

theorem same_outcome {s : JStr} {ts : List JStr} (h : Cut s ts) (env : Env) {d d' : Data}
    (hf : ∀ f ∈ ts, Classified f .field → SameAt f d d') (hl : ∀ f, LiteralName ts f → SameAt f d d') {b : Bool} :
    List.Forall₂ (fun t t' => TokOk d d' b t t' ∧ TokEnv env env t) (lex s) (lex s) := by
  refine forall2_diag (fun t ht => ⟨?_, tokEnv_refl env t⟩)
  obtain ⟨h1, h2⟩ := cut_texts h ht
  refine tok_same h1 h2 (sameAt_lookup ?_) hl
  by_cases hc : Classified t.text .field
  · exact hf _ h1 hc
  · exact hl _ (.inl ⟨h1, hc⟩)

/-- **C17**, for every text: two data maps that agree on the names the text mentions give the same outcome. -/
theorem C17_every_text {s : JStr} {ts : List JStr} (h : Cut s ts) (env : Env) {d d' : Data} {df : Option JStr}
    (ha : ∀ f, Mentions ts df f → SameAt f d d') : evaluate env s d df = evaluate env s d' df := by
  have hl : ∀ f, LiteralName ts f → SameAt f d d' := fun f hf => ha f (.inr (.inr hf))
  refine evaluate_tok ?_ (eof_same hl) (same_outcome h env (fun f h1 h2 => ha f (.inl ⟨h1, h2⟩)) hl)
  cases df with
  | none => exact .none
  | some f => exact .some ⟨sameAt_lookup (ha f (.inr (.inl rfl))), rfl⟩

/-- **C17**, for every text, arithmetic evaluator. -/
theorem C17_every_text_arith {s : JStr} {ts : List JStr} (h : Cut s ts) (env : Env) {d d' : Data}
    (ha : ∀ f, Mentions ts none f → SameAt f d d') : evaluateArith env s d = evaluateArith env s d' := by
  have hl : ∀ f, LiteralName ts f → SameAt f d d' := fun f hf => ha f (.inr (.inr hf))
  exact evaluateArith_tok (eof_same hl) (same_outcome h env (fun f h1 h2 => ha f (.inl ⟨h1, h2⟩)) hl)

theorem hasEntry_put {d : Data} {k k' : JStr} {v w : Value} (hk : k ≠ k') : HasEntry ((k, v) :: d) k' w ↔ HasEntry d k' w := by
  constructor
  · rintro ⟨pre, post, h, hp⟩
    cases pre with
    | nil => simp only [List.nil_append, List.cons.injEq, Prod.mk.injEq] at h; exact absurd h.1.1 hk
    | cons e pre =>
      simp only [List.cons_append, List.cons.injEq] at h
      exact ⟨pre, post, h.2, fun e he => hp e (List.mem_cons_of_mem _ he)⟩
  · rintro ⟨pre, post, rfl, hp⟩
    refine ⟨(k, v) :: pre, post, rfl, ?_⟩
    intro e he
    rcases List.mem_cons.1 he with rfl | he
    · exact hk
    · exact hp e he

/-- Putting another value under the key `k` leaves the names whose first key is not `k` alone. -/
theorem put_sameAt {d : Data} {k : JStr} {v : Value} {f : JStr} (hk : k ≠ []) (h : ∀ ks, Names f ks → ks.head? ≠ some k) :
    SameAt f d ((k, v) :: d) := by
  refine ⟨?_, fun _ w => (hasEntry_put hk).symm⟩
  intro ks w hn
  have hh := h ks hn
  constructor
  · intro hr
    cases hr with
    | leaf h1 h2 => exact .leaf ((hasEntry_put (by simpa [eq_comm] using hh)).2 h1) h2
    | step h1 h2 => exact .step ((hasEntry_put (by simpa [eq_comm] using hh)).2 h1) h2
  · intro hr
    cases hr with
    | leaf h1 h2 => exact .leaf ((hasEntry_put (by simpa [eq_comm] using hh)).1 h1) h2
    | step h1 h2 => exact .step ((hasEntry_put (by simpa [eq_comm] using hh)).1 h1) h2

theorem names_head {f : JStr} {k : JStr} {ks : List JStr} (h : Names f (k :: ks)) (hk : '.' ∉ k) :
    f.takeWhile (· ≠ '.') = k := by
  obtain ⟨⟨_, _, _⟩, n, rfl⟩ := h
  have key : ∀ r : JStr, (∀ c, r.head? = some c → c = '.') → (k ++ r).takeWhile (· ≠ '.') = k := by
    intro r hr
    rw [List.takeWhile_append_of_pos (by
      intro c hc
      simp only [ne_eq, decide_not, Bool.not_eq_true', decide_eq_false_iff_not]
      rintro rfl; exact hk hc)]
    cases r with
    | nil => simp
    | cons c r => rw [hr c rfl]; simp
  cases ks with
  | nil =>
    rw [joinDots]
    refine key _ ?_
    intro c hc
    cases n with
    | zero => cases hc
    | succ n => simpa [List.replicate_succ, eq_comm] using hc
  | cons k2 ks =>
    rw [joinDots, List.append_assoc]
    exact key _ (by intro c hc; simpa [eq_comm] using hc)

/-- **C17**, the way it is used: setting a top-level field that is the first part of no name in the text changes
nothing. -/
theorem C17_unused_field {s : JStr} {ts : List JStr} (h : Cut s ts) (env : Env) {d : Data} {df : Option JStr} {k : JStr}
    (hk : k ≠ []) (hd : '.' ∉ k) (hm : ∀ f, Mentions ts df f → f.takeWhile (· ≠ '.') ≠ k) (v : Value) :
    evaluate env s d df = evaluate env s ((k, v) :: d) df := by
  refine C17_every_text h env (fun f hf => put_sameAt hk ?_)
  intro ks hn hh
  cases ks with
  | nil => cases hh
  | cons k' ks =>
    simp only [List.head?_cons, Option.some.injEq] at hh
    subst hh
    exact hm f hf (names_head hn hd)

/-- `extra` is not mentioned in `a > 5 + 3`, which is not grouped as written. -/
example (env : Env) (d : Data) (v : Value) :
    evaluate env j!"a > 5 + 3" d none = evaluate env j!"a > 5 + 3" ((j!"extra", v) :: d) none := by
  refine C17_unused_field (ts := [j!"a", j!">", j!"5", j!"+", j!"3"]) (cut_of (by krfl)) env (by decide) (by decide) ?_ v
  rintro f (⟨h, _⟩ | h | ⟨h, _⟩ | ⟨q, hq, h⟩ | h | rfl)
  · simp only [List.mem_cons, List.not_mem_nil, or_false] at h
    rcases h with rfl | rfl | rfl | rfl | rfl <;> decide
  · cases h
  · simp only [List.mem_cons, List.not_mem_nil, or_false] at h
    rcases h with rfl | rfl | rfl | rfl | rfl <;> decide
  · simp only [List.mem_cons, List.not_mem_nil, or_false, List.cons.injEq] at h
    rcases hq with rfl | rfl <;> simp at h
  · obtain ⟨c, r, rfl, h'⟩ := numberName_like h
    clear h
    intro he
    rcases h' with h | rfl | rfl
    · have : c ≠ '.' := by rintro rfl; exact absurd h (by decide)
      rw [List.takeWhile_cons_of_pos (by simpa using this)] at he
      injection he with he _
      subst he; exact absurd h (by decide)
    · rw [List.takeWhile_cons_of_pos (by decide)] at he; cases he
    · rw [List.takeWhile_cons_of_pos (by decide)] at he; cases he
  · decide

/-! ## C60 More data keep an answer -/

theorem kept_of {s : JStr} {ts : List JStr} (h : Cut s ts) {d d' : Data} {df : Option JStr}
    (hn : ∀ t ∈ ts, lower t ≠ j!"null") (hdn : ∀ f, df = some f → lower f ≠ j!"null")
    (hk : ∀ f, Mentions ts df f → KeptAt f d d') : Sim (Occurs s) (V1 d d') df df := by
  have key : ∀ t ∈ lex s, KeptAt t.text d d' := by
    intro t ht
    obtain ⟨h1, h2⟩ := cut_texts h ht
    by_cases hc : Classified t.text .field
    · exact hk _ (.inl ⟨h1, hc⟩)
    · exact hk _ (.inr (.inr (.inl ⟨h1, hc⟩)))
  refine kept_sim ?_ (fun t ht v => keptAt_lookup (key t ht)) ?_ ?_
  · intro t ht _
    simpa using hn _ (cut_texts h ht).1
  · intro t ht dt v hd hv hb h0 w
    rcases ht with ht | rfl
    · obtain ⟨ht', hc⟩ := cut_texts h ht
      rcases convert_name ht' hc hd hv hb h0 with h1 | ⟨q, hq, h1⟩ | h1
      · rw [h1]
        exact keptAt_lookup (key t ht)
      · exact keptAt_lookup (hk _ (.inr (.inr (.inr (.inl ⟨q, hq, h1 ▸ ht'⟩)))))
      · exact keptAt_lookup (hk _ (.inr (.inr (.inr (.inr (.inl h1))))))
    · rw [convert_eofTok hd hv]
      exact keptAt_lookup (hk _ (.inr (.inr (.inr (.inr (.inr rfl))))))
  · intro f hf
    exact ⟨rfl, fun v => keptAt_lookup (hk f (.inr (.inl hf))), by simpa using hdn f hf⟩

/-- **C60.** If the word null does not occur, an answer stays the same when values are added under names that had
none: whatever `d'` holds elsewhere, if it has the values `d` has under the names the text mentions, then an answer
given with `d` is given with `d'`. -/
theorem C60_more_data {s : JStr} {ts : List JStr} (h : Cut s ts) (env : Env) {d d' : Data} {df : Option JStr}
    (hn : ∀ t ∈ ts, lower t ≠ j!"null") (hdn : ∀ f, df = some f → lower f ≠ j!"null")
    (hk : ∀ f, Mentions ts df f → KeptAt f d d') {b : Bool} (hb : evaluate env s d df = .success b) :
    evaluate env s d' df = .success b :=
  evaluate_kept (kept_of h hn hdn hk) hb

/-- **C60**, arithmetic evaluator. -/
theorem C60_more_data_arith {s : JStr} {ts : List JStr} (h : Cut s ts) (env : Env) {d d' : Data}
    (hn : ∀ t ∈ ts, lower t ≠ j!"null") (hk : ∀ f, Mentions ts none f → KeptAt f d d') {v : Value}
    (hv : evaluateArith env s d = .success v) : evaluateArith env s d' = .success v :=
  evaluateArith_kept (kept_of h hn (by intro f h; cases h) hk) hv

theorem hasEntry_append {d : Data} {k : JStr} {v : Value} (h : HasEntry d k v) (extra : Data) : HasEntry (d ++ extra) k v := by
  obtain ⟨pre, post, rfl, hp⟩ := h
  exact ⟨pre, post ++ extra, by simp, hp⟩

theorem reaches_append {d : Data} {ks : List JStr} {v : Value} (h : Reaches d ks v) (extra : Data) :
    Reaches (d ++ extra) ks v := by
  cases h with
  | leaf h1 h2 => exact .leaf (hasEntry_append h1 extra) h2
  | step h1 h2 => exact .step (hasEntry_append h1 extra) h2

/-- **C60**, the way it is used: adding new fields (existing ones are kept) never changes an answer. -/
theorem C60_added_fields {s : JStr} {ts : List JStr} (h : Cut s ts) (env : Env) (d extra : Data) {df : Option JStr}
    (hn : ∀ t ∈ ts, lower t ≠ j!"null") (hdn : ∀ f, df = some f → lower f ≠ j!"null") {b : Bool}
    (hb : evaluate env s d df = .success b) : evaluate env s (d ++ extra) df = .success b :=
  C60_more_data h env hn hdn
    (fun _ _ => ⟨fun _ _ _ hr => reaches_append hr extra, fun _ _ hv => hasEntry_append hv extra⟩) hb

/-- **C60**, adding fields, arithmetic evaluator. -/
theorem C60_added_fields_arith {s : JStr} {ts : List JStr} (h : Cut s ts) (env : Env) (d extra : Data)
    (hn : ∀ t ∈ ts, lower t ≠ j!"null") {v : Value} (hv : evaluateArith env s d = .success v) :
    evaluateArith env s (d ++ extra) = .success v :=
  C60_more_data_arith h env hn
    (fun _ _ => ⟨fun _ _ _ hr => reaches_append hr extra, fun _ _ hv => hasEntry_append hv extra⟩) hv

example (env : Env) (extra : Data) :
    evaluate env j!"a > 5 AND NOT (b = 'x')" ([(j!"a", .int 7), (j!"b", .str j!"y")] ++ extra) none = .success true :=
  C60_added_fields (ts := [j!"a", j!">", j!"5", j!"AND", j!"NOT", j!"(", j!"b", j!"=", j!"'x'", j!")"])
    (cut_of (by krfl)) env _ extra (by decide) (by intro f h; cases h)
    (by rw [evaluate, show parseExpression j!"a > 5 AND NOT (b = 'x')" none = .success
          (.and_ (.cmp (.field (some ['a'])) (.unary .integer (.int 5)) .gt .integer)
            (.not_ (.cmp (.field (some ['b'])) (.unary .string (.str ['x'])) .eq .string))) by krfl]; rfl)

/-- Without the condition on null it is false: `a = null` is answered yes, and no once `a` is there. -/
example (env : Env) : evaluate env j!"a = null" [] none = .success true ∧
    evaluate env j!"a = null" ([] ++ [(j!"a", .int 1)]) none = .success false := by
  have h : parseExpression j!"a = null" none = .success
      (.cmp (.field (some ['a'])) (.field (some j!"null")) .eq .string) := by krfl
  exact ⟨by rw [evaluate, h]; rfl, by rw [evaluate, h]; rfl⟩

/-! ## C62 Renaming fields -/

theorem renames_tok {d d' : Data} {ts : List JStr} {b : Bool} (hl : ∀ f, LiteralName ts f → SameAt f d d') {t t' : Token}
    (ht : t.text ∈ ts) (hc : Classified t.text t.kind) (hc' : Classified t'.text t'.kind)
    (h : Renames d d' t.text t'.text) : TokOk d d' b t t' := by
  rcases h with ⟨h1, h2⟩ | ⟨h1, h2, h3, ks, ks', h4, h5, h6⟩
  · have : t' = t := by
      rw [h1] at hc'
      have := classified_one hc hc'
      cases t; cases t'; simp_all
    subst this
    refine tok_same ht hc' (sameAt_lookup ?_) hl
    by_cases hf : Classified t'.text .field
    · exact h2 hf
    · exact hl _ (.inl ⟨ht, hf⟩)
  · have k1 := classified_one h1 hc
    have k2 := classified_one h2 hc'
    obtain ⟨k, x⟩ := t
    obtain ⟨k', x'⟩ := t'
    simp only at k1 k2
    subst k1
    subst k2
    refine .field x x' (name_unquoted h1) (name_unquoted h2) ?_ ?_
    · cases hx : getValueFromMap x d with
      | error e =>
        rw [getValueFromMap, splitKey_names h4] at hx
        obtain ⟨o, ho⟩ := walkKeys_ok (ks := ks) (by rintro rfl; exact h4.1.1 rfl) d
        rw [ho] at hx; cases hx
      | ok o =>
        cases o with
        | some v => exact ((lookup_some h5 _ _).2 ((h6 v).1 ((lookup_some h4 _ _).1 hx))).symm
        | none =>
          refine ((lookup_none h5 _).2 ?_).symm
          intro v hv
          exact (lookup_none h4 _).1 hx v ((h6 v).2 hv)
    · rw [Bool.eq_iff_iff]; simpa using h3

/-- Renamed default fields. -/
theorem dflt_renames {env : Env} {ts : List JStr} {d d' : Data} {df df' : Option JStr} {b : Bool}
    (hl : ∀ f, LiteralName ts f → SameAt f d d')
    (hdf : df = none ∧ df' = none ∨ ∃ f f', df = some f ∧ df' = some f' ∧ Classified f .field ∧ Classified f' .field ∧
      Renames d d' f f') : ORel (V0 env env d d' b).field df df' := by
  rcases hdf with ⟨rfl, rfl⟩ | ⟨f, f', rfl, rfl, h1, h2, h3⟩
  · exact .none
  · refine .some ?_
    rcases h3 with ⟨rfl, h3⟩ | h3
    · exact ⟨sameAt_lookup (h3 h1), rfl⟩
    · have := renames_tok (b := false) (ts := [f] ++ ts) (t := ⟨.field, f⟩) (t' := ⟨.field, f'⟩) ?_ (by simp) h1 h2 (.inr h3)
      · cases this with
        | same _ h _ => exact ⟨h, rfl⟩
        | field _ _ _ _ h1 h2 => exact ⟨h1, h2⟩
        | table _ _ _ h => exact absurd rfl (table_not_field h)
      · rintro g (⟨hg, hn⟩ | ⟨q, hq, hg⟩ | hg | rfl)
        · rcases List.mem_append.1 hg with hg | hg
          · simp only [List.mem_singleton] at hg; subst hg; exact absurd h1 hn
          · exact hl _ (.inl ⟨hg, hn⟩)
        · rcases List.mem_append.1 hg with hg | hg
          · simp only [List.mem_singleton] at hg
            subst hg
            have := name_unquoted h1
            rcases hq with rfl | rfl
            · exact absurd rfl this.1
            · exact absurd rfl this.2
          · exact hl _ (.inr (.inl ⟨q, hq, hg⟩))
        · refine hl _ (.inr (.inr (.inl ?_)))
          rcases hg with ⟨l, hv, hi, hm, rfl⟩ | ⟨⟨t, hm, ht⟩, hg⟩
          · rcases List.mem_append.1 hm with hm | hm
            · simp only [List.mem_singleton] at hm
              subst hm
              cases l with
              | int ds => exact absurd (classified_one h1 (.integer hv.1)) (by decide)
              | dec a b => exact absurd (classified_one h1 (.decimal ⟨a, b, hv.1, hv.2, rfl⟩)) (by decide)
              | _ => cases hi
            · exact .inl ⟨l, hv, hi, hm, rfl⟩
          · rcases List.mem_append.1 hm with hm | hm
            · simp only [List.mem_singleton] at hm
              subst hm
              rcases ht with ht | ht
              · exact absurd (classified_one h1 (.date ht)) (by decide)
              · exact absurd (classified_one h1 (.datetime ht)) (by decide)
            · exact .inr ⟨⟨t, hm, ht⟩, hg⟩
        · exact hl _ (.inr (.inr (.inr rfl)))

/-- **C62.** Fields may be renamed: if the lexemes of two texts correspond one by one, each the same or a field name
under which the other map holds the same value, the two evaluations have the same outcome. -/
theorem C62_rename {s s' : JStr} {ts ts' : List JStr} (h : Cut s ts) (h' : Cut s' ts') (env : Env) {d d' : Data}
    {df df' : Option JStr} (hr : List.Forall₂ (Renames d d') ts ts') (hl : ∀ f, LiteralName ts f → SameAt f d d')
    (hdf : df = none ∧ df' = none ∨ ∃ f f', df = some f ∧ df' = some f' ∧ Classified f .field ∧ Classified f' .field ∧
      Renames d d' f f') :
    evaluate env s d df = evaluate env s' d' df' ∧ evaluateArith env s d = evaluateArith env s' d' := by
  have key : ∀ {b : Bool}, List.Forall₂ (fun t t' => TokOk d d' b t t' ∧ TokEnv env env t) (lex s) (lex s') := by
    intro b
    rw [← cut_unique h, ← cut_unique h'] at hr
    refine forall2_imp (forall2_tokens hr (lex_valid _ s (Nat.le_refl _)) (lex_valid _ s' (Nat.le_refl _))) ?_
    rintro t t' ⟨h1, ⟨h2, h3⟩, h4⟩
    exact ⟨renames_tok hl (cut_texts h h2).1 h3 h4 h1, tokEnv_refl env t⟩
  exact ⟨evaluate_tok (dflt_renames hl hdf) (eof_same hl) key, evaluateArith_tok (eof_same hl) key⟩

/-- `person.age > limit` over nested data asks the same as `age > max` over flat data. -/
example (env : Env) (n m : Int) :
    evaluate env j!"person.age > limit" [(j!"person", .map [(j!"age", .int n)]), (j!"limit", .int m)] none =
    evaluate env j!"age > max_" [(j!"max_", .int m), (j!"age", .int n)] none := by
  have fld : ∀ f : JStr, bestMatch f lexRules = some (.tok .field, f.length) → Classified f .field :=
    fun f h => valid_classified (valid_of_best h)
  refine (C62_rename (ts := [j!"person.age", j!">", j!"limit"]) (ts' := [j!"age", j!">", j!"max_"])
    (cut_of (by krfl)) (cut_of (by krfl)) env ?_ ?_ (.inl ⟨rfl, rfl⟩)).1
  · refine .cons (.inr ⟨fld _ (by krfl), fld _ (by krfl), by decide, [j!"person", j!"age"], [j!"age"],
      ⟨⟨by simp, by decide, by decide⟩, 0, rfl⟩, ⟨⟨by simp, by decide, by decide⟩, 0, rfl⟩, ?_⟩) (.cons (.inl ⟨rfl, ?_⟩)
      (.cons (.inr ⟨fld _ (by krfl), fld _ (by krfl), by decide, [j!"limit"], [j!"max_"],
      ⟨⟨by simp, by decide, by decide⟩, 0, rfl⟩, ⟨⟨by simp, by decide, by decide⟩, 0, rfl⟩, ?_⟩) .nil))
    · intro v; rw [← walkKeys_some, ← walkKeys_some]; exact Iff.rfl
    · intro h
      exact absurd (classified_one h (.table (k := .cmp .gt) (by decide +kernel))) (by decide)
    · intro v; rw [← walkKeys_some, ← walkKeys_some]; exact Iff.rfl
  · intro f hf
    have key : ∀ {k : JStr}, (k = j!"person" ∨ k = j!"age" ∨ k = j!"limit" ∨ k = j!"max_") →
        f.takeWhile (· ≠ '.') ≠ k := by
      intro k hk
      rcases hf with ⟨h, hn⟩ | ⟨q, hq, h⟩ | h | rfl
      · simp only [List.mem_cons, List.not_mem_nil, or_false] at h
        rcases h with rfl | rfl | rfl
        · exact absurd (fld _ (by krfl)) hn
        · rcases hk with rfl | rfl | rfl | rfl <;> decide
        · exact absurd (fld _ (by krfl)) hn
      · simp only [List.mem_cons, List.not_mem_nil, or_false, List.cons.injEq] at h
        rcases hq with rfl | rfl <;> simp at h
      · obtain ⟨c, r, rfl, h'⟩ := numberName_like h
        clear h
        rename' h' => h
        intro he
        have hc : c ≠ '.' := by rintro rfl; exact absurd h (by decide)
        rw [List.takeWhile_cons_of_pos (by simpa using hc)] at he
        rcases hk with rfl | rfl | rfl | rfl <;>
          (injection he with he _; subst he; exact absurd h (by decide))
      · rcases hk with rfl | rfl | rfl | rfl <;> decide
    have ne : ∀ {ks}, Names f ks → ∀ {k}, (k = j!"person" ∨ k = j!"age" ∨ k = j!"limit" ∨ k = j!"max_") →
        ks.head? ≠ some k := by
      intro ks hn k hk hh
      cases ks with
      | nil => cases hh
      | cons k' ks =>
        simp only [List.head?_cons, Option.some.injEq] at hh
        subst hh
        exact key hk (names_head hn (by rcases hk with rfl | rfl | rfl | rfl <;> decide))
    have up : ∀ (k : JStr) (v : Value) (d : Data), (k = j!"person" ∨ k = j!"age" ∨ k = j!"limit" ∨ k = j!"max_") →
        SameAt f d ((k, v) :: d) := by
      intro k v d hk
      exact put_sameAt (by rcases hk with rfl | rfl | rfl | rfl <;> decide) (fun ks hn => ne hn hk)
    have tr : ∀ {a b c : Data}, SameAt f a b → SameAt f b c → SameAt f a c := fun h1 h2 =>
      ⟨fun ks v hn => (h1.1 ks v hn).trans (h2.1 ks v hn), fun hf v => (h1.2 hf v).trans (h2.2 hf v)⟩
    have sy : ∀ {a b : Data}, SameAt f a b → SameAt f b a := fun h1 =>
      ⟨fun ks v hn => (h1.1 ks v hn).symm, fun hf v => (h1.2 hf v).symm⟩
    exact tr (sy (tr (up j!"limit" _ [] (by simp)) (up j!"person" _ _ (by simp))))
      (tr (up j!"age" _ [] (by simp)) (up j!"max_" _ _ (by simp)))

/-! ## C41 for every text -/

theorem noentry_lookup {d : Data} {x : JStr} (hd : '.' ∉ x) (h : ∀ v, ¬ HasEntry d x v) : getValueFromMap x d = .ok none := by
  rw [getValueFromMap, splitKey, if_neg hd]
  have : mapGet d x = none := by
    cases hm : mapGet d x with
    | none => rfl
    | some v => exact absurd ((mapGet_iff _ _ _).1 hm) (h v)
  simp only [walkKeys, this]

theorem keyword_tok {d : Data} {b : Bool} (hd : ∀ t k, (t, k) ∈ tokenTable → ∀ v, ¬ HasEntry d t v) {t t' : Token}
    (hc : Classified t.text t.kind) (hc' : Classified t'.text t'.kind) (h : SameKeyword t.text t'.text)
    (hb : b = true → t.text ∈ logicWords → t'.text = t.text) : TokOk d d b t t' := by
  rcases h with h1 | ⟨k, h1, h2⟩
  · have : t' = t := by
      rw [h1] at hc'
      have := classified_one hc hc'
      cases t; cases t'; simp_all
    subst this
    exact .same _ rfl (fun _ _ _ _ _ _ => rfl)
  · have k1 := classified_one hc (.table h1)
    have k2 := classified_one hc' (.table h2)
    obtain ⟨k0, x⟩ := t
    obtain ⟨k0', x'⟩ := t'
    simp only at k1 k2 h1 h2 hb
    subst k1
    subst k2
    have dots : ∀ p ∈ tokenTable, '.' ∉ p.1 := by decide +kernel
    refine .table _ x x' h1 h2 ?_ ?_
    · rw [noentry_lookup (dots _ h1) (hd _ _ h1), noentry_lookup (dots _ h2) (hd _ _ h2)]
    · intro hs ho
      have key : ∀ p ∈ tokenTable, ∀ q ∈ tokenTable, p.2 = q.2 → (isLitKind p.2 = true ∨ isEmptyFollow p.2 = true) →
          p.1 ∈ logicWords ∨ p.1 = q.1 := by decide +kernel
      rcases ho with rfl | ho
      · exact absurd rfl (table_not_field h1)
      · rcases key _ h1 _ h2 rfl ho with h3 | h3
        · exact (hb hs h3).symm
        · exact h3

/-- **C41 (partial)**, for every text: two texts whose lexemes are the same up to the spellings of keywords and
operators evaluate alike, if no field of the data is named like a keyword. Missing from the full claim: mixed-case
spellings. -/
theorem C41_every_text_partial {s s' : JStr} {ts ts' : List JStr} (h : Cut s ts) (h' : Cut s' ts')
    (hk : List.Forall₂ SameKeyword ts ts') (env : Env) {d : Data}
    (hd : ∀ t k, (t, k) ∈ tokenTable → ∀ v, ¬ HasEntry d t v) (df : Option JStr) :
    evaluate env s d df = evaluate env s' d df := by
  refine evaluate_tok ?_ (.same _ rfl (fun _ _ _ _ _ _ => rfl)) ?_
  · cases df with
    | none => exact .none
    | some f => exact .some ⟨rfl, rfl⟩
  · rw [← cut_unique h, ← cut_unique h'] at hk
    refine forall2_imp (forall2_tokens hk (lex_valid _ s (Nat.le_refl _)) (lex_valid _ s' (Nat.le_refl _))) ?_
    rintro t t' ⟨h1, ⟨h2, h3⟩, h4⟩
    exact ⟨keyword_tok hd h3 h4 h1 (by intro h; cases h), tokEnv_refl env t⟩

/-- **C41 (partial)**, for every text, arithmetic evaluator (which returns the text of a lone operand: TRUE, FALSE,
AND and OR must be spelled the same). -/
theorem C41_every_text_arith_partial {s s' : JStr} {ts ts' : List JStr} (h : Cut s ts) (h' : Cut s' ts')
    (hk : List.Forall₂ (fun t t' => SameKeyword t t' ∧ (t ∈ logicWords → t' = t)) ts ts') (env : Env) {d : Data}
    (hd : ∀ t k, (t, k) ∈ tokenTable → ∀ v, ¬ HasEntry d t v) : evaluateArith env s d = evaluateArith env s' d := by
  refine evaluateArith_tok (.same _ rfl (fun _ _ _ _ _ _ => rfl)) ?_
  rw [← cut_unique h, ← cut_unique h'] at hk
  refine forall2_imp (forall2_tokens hk (lex_valid _ s (Nat.le_refl _)) (lex_valid _ s' (Nat.le_refl _))) ?_
  rintro t t' ⟨h1, ⟨h2, h3⟩, h4⟩
  exact ⟨keyword_tok hd h3 h4 h1.1 (fun _ => h1.2), tokEnv_refl env t⟩

/-- `a > 5 + 3 and …` is not grouped as written; still the spelling of AND does not matter. -/
example (env : Env) (n : Int) : evaluate env j!"a > 5 + 3 and not (b = 1)" [(j!"a", .int n)] none =
    evaluate env j!"a > 5 + 3 && NOT (b = 1)" [(j!"a", .int n)] none := by
  refine C41_every_text_partial (ts := [j!"a", j!">", j!"5", j!"+", j!"3", j!"and", j!"not", j!"(", j!"b", j!"=", j!"1", j!")"])
    (ts' := [j!"a", j!">", j!"5", j!"+", j!"3", j!"&&", j!"NOT", j!"(", j!"b", j!"=", j!"1", j!")"])
    (cut_of (by krfl)) (cut_of (by krfl)) ?_ env ?_ none
  · exact .cons (.inl rfl) (.cons (.inl rfl) (.cons (.inl rfl) (.cons (.inl rfl) (.cons (.inl rfl)
      (.cons (.inr ⟨.kAnd, by decide +kernel, by decide +kernel⟩) (.cons (.inr ⟨.kNot, by decide +kernel, by decide +kernel⟩)
      (.cons (.inl rfl) (.cons (.inl rfl) (.cons (.inl rfl) (.cons (.inl rfl) (.cons (.inl rfl) .nil)))))))))))
  · intro t k h v hv
    have h1 := hasEntry_mem hv
    simp only [List.mem_singleton, Prod.mk.injEq] at h1
    rw [h1.1] at h
    have : ∀ p ∈ tokenTable, p.1 ≠ ['a'] := by decide +kernel
    exact this _ h rfl

end BoolParser
