import Verif.Lemmas.Local
import Verif.Lemmas.Trailing
import Verif.Lemmas.Written
import Verif.Props.Lexical
/-!
# C56, C57: the published grammar is what is accepted; wrapping a whole expression
-/

namespace BoolParser
open Spec

/-! ## C56 -/

theorem lex_kinds {s : JStr} {ts : List JStr} {ks : List TK} (h : Cut s ts) (hk : List.Forall₂ Classified ts ks) :
    (lex s).map Token.kind = ks := by
  have hs := cut_unique h
  have hv := lex_valid _ s (Nat.le_refl _)
  clear h
  generalize lex s = us at hs hv
  subst hs
  induction us generalizing ks with
  | nil => cases hk; rfl
  | cons u us ih =>
    obtain ⟨k, ks, rfl⟩ : ∃ k l, ks = k :: l := by cases hk; exact ⟨_, _, rfl⟩
    rw [List.map, List.forall₂_cons] at hk
    rw [List.map, ih (fun t ht => hv t (List.mem_cons_of_mem _ ht)) hk.2,
      valid_unique (hv u (by simp)) (classified_valid hk.1)]

theorem lex_classified (s : JStr) : List.Forall₂ Classified ((lex s).map Token.text) ((lex s).map Token.kind) := by
  have hv := lex_valid _ s (Nat.le_refl _)
  generalize lex s = us at hv
  induction us with
  | nil => exact .nil
  | cons u us ih => exact .cons (valid_classified (hv u (by simp))) (ih (fun t ht => hv t (List.mem_cons_of_mem _ ht)))

/-- **C56.** A text is accepted, whatever the default field, if and only if the kinds of its lexemes form an
`expression` of the published grammar. -/
theorem C56_accepted (s : JStr) (df : Option JStr) :
    parseExpression s df ≠ .syntaxError ↔
      ∃ ts ks, Cut s ts ∧ List.Forall₂ Classified ts ks ∧ Expression ks := by
  have key : parseExpression s df ≠ .syntaxError ↔ Expression ((lex s).map Token.kind) := by
    rw [parseExpression]
    constructor
    · intro h
      cases e : parseTokens (lex s) with
      | none => rw [e] at h; exact absurd rfl h
      | some t => exact parse_sound e
    · intro h
      obtain ⟨t, ht⟩ := parse_complete h
      rw [ht]
      show Outcome.ofResult (listen df t) ≠ _
      generalize listen df t = r
      cases r <;> simp [Outcome.ofResult]
  rw [key]
  constructor
  · exact fun h => ⟨_, _, cut_lex _ s (Nat.le_refl _), lex_classified s, h⟩
  · rintro ⟨ts, ks, h1, h2, h3⟩
    rw [lex_kinds h1 h2]; exact h3

/-- **C56** for evaluation: whether an expression is accepted depends neither on the data nor on the clock nor on
the default field; both evaluators accept exactly the expressions of the grammar. -/
theorem C56_evaluated (env : Env) (s : JStr) (d : Data) (df : Option JStr) {ts : List JStr} {ks : List TK}
    (h : Cut s ts) (hk : List.Forall₂ Classified ts ks) :
    (evaluate env s d df ≠ .syntaxError ↔ Expression ks) ∧
    (evaluateArith env s d ≠ .syntaxError ↔ Expression ks) := by
  have acc : ∀ df, parseExpression s df ≠ .syntaxError ↔ Expression ks := by
    intro df
    rw [C56_accepted]
    constructor
    · rintro ⟨ts', ks', h1, h2, h3⟩
      rw [← lex_kinds h hk, lex_kinds h1 h2]; exact h3
    · exact fun h3 => ⟨ts, ks, h, hk, h3⟩
  have out : ∀ {α : Type} (o : Outcome Node) (f : Node → Result α), o.andThen f ≠ .syntaxError ↔ o ≠ .syntaxError := by
    intro α o f
    cases o with
    | success a => cases e : f a <;> simp [Outcome.andThen, Outcome.ofResult, e]
    | failure e => simp [Outcome.andThen]
    | syntaxError => simp [Outcome.andThen]
  exact ⟨(out _ _).trans (acc df), (out _ _).trans (acc none)⟩

/-- An ambiguous sequence with a missing operand is accepted: `a > - 5 AND NOT`. -/
example : Expression [.field, .cmp .gt, .arith .sub, .integer, .kAnd, .kNot] :=
  .between (l := [.field]) (o := .cmp .gt) (by simp [betweenKinds]) (.types (by simp [typesKinds]))
    (.minus (.between (l := [.integer]) (o := .kAnd) (by simp [betweenKinds]) (.types (by simp [typesKinds]))
      (.not_ .omitted)))

example (df : Option JStr) : parseExpression j!"a > -5 AND NOT" df ≠ .syntaxError :=
  (C56_accepted _ df).2 ⟨_, _, cut_lex _ _ (Nat.le_refl _), lex_classified _, by
    have : (lex j!"a > -5 AND NOT").map Token.kind = [.field, .cmp .gt, .arith .sub, .integer, .kAnd, .kNot] := by krfl
    rw [this]
    exact .between (l := [.field]) (o := .cmp .gt) (by simp [betweenKinds]) (.types (by simp [typesKinds]))
      (.minus (.between (l := [.integer]) (o := .kAnd) (by simp [betweenKinds]) (.types (by simp [typesKinds]))
        (.not_ .omitted)))⟩

theorem Expression.balanced {ks : List TK} (h : Expression ks) : ks.count .lparen = ks.count .rparen := by
  have items : ∀ {e : List TK} {es : List (List TK)}, e.count .lparen = e.count .rparen →
      (∀ x ∈ es, x.count TK.lparen = x.count TK.rparen) →
      (wordlist e es).count .lparen = (wordlist e es).count .rparen := by
    intro e es he hes
    have : (es.flatMap (fun x => TK.comma :: x)).count .lparen = (es.flatMap (fun x => TK.comma :: x)).count .rparen := by
      induction es with
      | nil => rfl
      | cons x es ih =>
        simp only [List.flatMap_cons, List.count_append, List.count_cons]
        rw [hes x (by simp), ih (fun y hy => hes y (by simp [hy]))]
        simp
    simp only [wordlist, List.count_cons, List.count_append, List.count_nil]
    rw [he, this]
    simp
    omega
  induction h with
  | paren _ ih => simp [List.count_append, ih]
  | not_ _ ih => simpa [List.count_cons] using ih
  | minus _ ih => simpa [List.count_cons] using ih
  | between ho _ _ ihl ihr =>
    rw [List.count_append, List.count_append, List.count_cons, List.count_cons, ihl, ihr]
    simp only [betweenKinds, List.mem_cons, List.not_mem_nil, or_false] at ho
    rcases ho with rfl | rfl | rfl | rfl | rfl | rfl | rfl | rfl | rfl | rfl | rfl | rfl | rfl | rfl <;> rfl
  | func _ _ ih ihs => simpa [List.count_cons] using items ih ihs
  | types hk =>
    simp only [typesKinds, List.mem_cons, List.not_mem_nil, or_false] at hk
    rcases hk with rfl | rfl | rfl | rfl | rfl | rfl | rfl | rfl | rfl <;> rfl
  | omitted => rfl
  | to_ h1 h2 =>
    simp only [numericKinds, List.mem_cons, List.not_mem_nil, or_false] at h1 h2
    rcases h1 with rfl | rfl <;> rcases h2 with rfl | rfl <;> rfl
  | in_ _ _ ih ihs => simpa [List.count_cons] using items ih ihs
  | notIn _ _ ih ihs => simpa [List.count_cons] using items ih ihs
  | array ho _ _ ih ihs =>
    simp only [arrayKinds, List.mem_cons, List.not_mem_nil, or_false] at ho
    rcases ho with rfl | rfl <;> simpa [List.count_cons] using items ih ihs

/-- **C56**, a consequence: an accepted text has as many `(` as `)` outside its strings. -/
theorem C56_balanced {s : JStr} {ts : List JStr} {df : Option JStr} (h : Cut s ts)
    (ha : parseExpression s df ≠ .syntaxError) : ts.count j!"(" = ts.count j!")" := by
  obtain ⟨ts', ks, h1, h2, h3⟩ := (C56_accepted s df).1 ha
  rw [← cut_unique h, cut_unique h1]
  have hb := h3.balanced
  have lp : ∀ {t k}, Classified t k → ((t == j!"(") = (k == .lparen)) ∧ ((t == j!")") = (k == .rparen)) := by
    intro t k hc
    constructor
    · by_cases e : t = j!"("
      · subst e
        have := valid_unique (classified_valid hc) valid_lparen
        subst this; rfl
      · have : k ≠ .lparen := by
          rintro rfl
          cases hc with
          | table hm =>
            simp only [tokenTable, List.mem_cons, Prod.mk.injEq, List.not_mem_nil, or_false, reduceCtorEq, and_false,
              and_true, false_or] at hm
            exact e hm
        rw [beq_eq_false_iff_ne.2 e, beq_eq_false_iff_ne.2 this]
    · by_cases e : t = j!")"
      · subst e
        have := valid_unique (classified_valid hc) valid_rparen
        subst this; rfl
      · have : k ≠ .rparen := by
          rintro rfl
          cases hc with
          | table hm =>
            simp only [tokenTable, List.mem_cons, Prod.mk.injEq, List.not_mem_nil, or_false, reduceCtorEq, and_false,
              and_true, false_or] at hm
            exact e hm
        rw [beq_eq_false_iff_ne.2 e, beq_eq_false_iff_ne.2 this]
  have cnt : ts'.count j!"(" = ks.count .lparen ∧ ts'.count j!")" = ks.count .rparen := by
    clear h1 h3 hb h
    induction h2 with
    | nil => exact ⟨rfl, rfl⟩
    | cons hc _ ih => simp only [List.count_cons, ih.1, ih.2, (lp hc).1, (lp hc).2, and_self]
  rw [cnt.1, cnt.2]; exact hb

/-! ## C57 -/

/-- The last lexeme is an operator, so that an operand is missing at the end; or there is no lexeme at all. -/
def EndsWithOperator (ts : List JStr) : Prop :=
  ts = [] ∨ ∃ pre t k, ts = pre ++ [t] ∧ (t, k) ∈ tokenTable ∧ (k ∈ betweenKinds ∨ k = .kNot)

theorem dangling_table {t : JStr} {k : TK} (h : Classified t k) (hk : Dangling k) : (t, k) ∈ tokenTable := by
  cases h with
  | table h => exact h
  | _ => rcases hk with hk | hk <;> simp [betweenKinds] at hk

theorem closed_of {s : JStr} {ts : List JStr} {t : Tree} (h : Cut s ts) (hp : parseTokens (lex s) = some t)
    (he : ¬ EndsWithOperator ts) : t.closed = true := by
  have hs := cut_unique h
  have hv := lex_valid _ s (Nat.le_refl _)
  refine parse_closed hp (fun u hu hk => ?_) (fun h0 => he (.inl ?_)) ?_
  · have := valid_classified (hv u hu)
    rw [hk] at this
    cases this with
    | table hm => simp [tokenTable] at hm
  · rw [h0] at hs; exact hs.symm
  · rintro ⟨pre, u, hu, hd⟩
    refine he (.inr ⟨pre.map Token.text, u.text, u.kind, ?_, dangling_table (valid_classified (hv u (by rw [hu]; simp))) hd, hd⟩)
    rw [← hs, hu, List.map_append]; rfl

theorem tokens_inj {a b : List Token} (ha : ∀ t ∈ a, ValidTok t) (hb : ∀ t ∈ b, ValidTok t)
    (h : a.map Token.text = b.map Token.text) : a = b := by
  induction a generalizing b with
  | nil => rw [List.map_nil, eq_comm, List.map_eq_nil_iff] at h; exact h.symm
  | cons x a ih =>
    cases b with
    | nil => cases h
    | cons y b =>
      simp only [List.map_cons, List.cons.injEq] at h
      have e : x = y := by
        obtain ⟨k, t⟩ := x
        obtain ⟨k', t'⟩ := y
        obtain rfl : t = t' := h.1
        rw [valid_unique (ha ⟨k, t⟩ List.mem_cons_self) (hb ⟨k', t⟩ List.mem_cons_self)]
      rw [e, ih (fun u hu => ha u (List.mem_cons_of_mem _ hu)) (fun u hu => hb u (List.mem_cons_of_mem _ hu)) h.2]

theorem lex_wrapped {s w : JStr} {ts : List JStr} (h : Cut s ts) {pre post : List Token}
    (hpre : ∀ t ∈ pre, ValidTok t) (hpost : ∀ t ∈ post, ValidTok t)
    (hw : Cut w (pre.map Token.text ++ (ts ++ post.map Token.text))) : lex w = pre ++ (lex s ++ post) := by
  have hs := cut_unique h
  have hl := cut_unique hw
  have hv := lex_valid _ s (Nat.le_refl _)
  have hv' := lex_valid _ w (Nat.le_refl _)
  refine tokens_inj hv' ?_ ?_
  · intro t ht
    simp only [List.mem_append] at ht
    rcases ht with ht | ht | ht
    exacts [hpre t ht, hv t ht, hpost t ht]
  · rw [hl, List.map_append, List.map_append, hs]

/-- **C57**, parentheses: writing `(` before and `)` after a whole accepted expression changes neither the parse nor
any result, unless an operand is missing at its end. -/
theorem C57_parentheses {s w : JStr} {ts : List JStr} {df : Option JStr} (h : Cut s ts) (hw : Cut w (j!"(" :: (ts ++ [j!")"])))
    (hp : parseExpression s df ≠ .syntaxError) (he : ¬ EndsWithOperator ts) :
    (∀ df, parseExpression w df = parseExpression s df) ∧
    (∀ env d df, evaluate env w d df = evaluate env s d df) ∧
    (∀ env d, evaluateArith env w d = evaluateArith env s d) := by
  have hl := lex_wrapped (pre := [⟨.lparen, j!"("⟩]) (post := [⟨.rparen, j!")"⟩]) h
    (by intro t ht; simp only [List.mem_singleton] at ht; subst ht; exact valid_lparen)
    (by intro t ht; simp only [List.mem_singleton] at ht; subst ht; exact valid_rparen) hw
  have key : ∀ df, parseExpression w df = parseExpression s df := by
    intro df
    rw [parseExpression, parseExpression]
    cases e : parseTokens (lex s) with
    | none => rw [parseExpression, e] at hp; exact absurd rfl hp
    | some t =>
      rw [hl, List.singleton_append, parse_paren e (closed_of h e he) rfl rfl]
      rfl
  exact ⟨key, fun env d df => by rw [evaluate, evaluate, key], fun env d => by rw [evaluateArith, evaluateArith, key]⟩

/-- Some lexeme is not a literal, a field or a parenthesis: the expression is more than a lone operand. -/
def Compound (ts : List JStr) : Prop :=
  ∃ t ∈ ts, ∃ k, Classified t k ∧ k ∉ typesKinds ∧ k ≠ .lparen ∧ k ≠ .rparen

/-- The opposite answer; a failure stays the same failure. -/
def Outcome.negated : Outcome Bool → Outcome Bool
  | .success b => .success (!b)
  | .failure e => .failure e
  | .syntaxError => .syntaxError

/-- **C57**, negation: `NOT (` before and `)` after a whole accepted expression gives the opposite answer and the same
failures, if the expression is more than a lone operand and no operand is missing at its end. -/
theorem C57_not {s w : JStr} {ts : List JStr} {n : JStr} (hn : n = j!"NOT" ∨ n = j!"not") (h : Cut s ts)
    (hw : Cut w (n :: j!"(" :: (ts ++ [j!")"]))) (df : Option JStr) (hp : parseExpression s df ≠ .syntaxError)
    (hc : Compound ts) (he : ¬ EndsWithOperator ts) (env : Env) (d : Data) :
    evaluate env w d df = (evaluate env s d df).negated := by
  have hvn : ValidTok ⟨.kNot, n⟩ := by
    rcases hn with rfl | rfl
    · exact valid_not
    · exact classified_valid (.table (by simp [tokenTable]))
  have hl := lex_wrapped (pre := [⟨.kNot, n⟩, ⟨.lparen, j!"("⟩]) (post := [⟨.rparen, j!")"⟩]) h
    (by intro t ht; simp only [List.mem_cons, List.not_mem_nil, or_false] at ht
        rcases ht with rfl | rfl
        exacts [hvn, valid_lparen])
    (by intro t ht; simp only [List.mem_singleton] at ht; subst ht; exact valid_rparen) hw
  rw [evaluate, evaluate, parseExpression, parseExpression]
  cases e : parseTokens (lex s) with
  | none => rw [parseExpression, e] at hp; exact absurd rfl hp
  | some t =>
    rw [hl, List.cons_append, List.singleton_append, parse_not_paren e (closed_of h e he) rfl rfl rfl]
    simp only
    have hlone : t.isLone = false := by
      rw [Bool.eq_false_iff]
      intro ht
      obtain ⟨x, hx, k, hk, h1, h2, h3⟩ := hc
      rw [← cut_unique h] at hx
      obtain ⟨u, hu, rfl⟩ := List.mem_map.1 hx
      have := valid_unique (lex_valid _ s (Nat.le_refl _) u hu) (classified_valid hk)
      have hh := parse_lone e ht u hu
      rw [this] at hh
      rcases hh with hh | hh | hh
      exacts [h1 hh, h2 hh, h3 hh]
    rw [listen_not (t := .paren t) hlone, listen_paren]
    cases listen df t with
    | error x => rfl
    | ok n =>
      show Outcome.ofResult (evalBool env d (.not_ n)) = Outcome.negated (.ofResult (evalBool env d n))
      rw [evalBool]
      cases evalBool env d n <;> rfl

/-! Concretely: `( s )` and `NOT ( s )`. -/

theorem written_cut {ls : List JStr} (hl : ∀ l ∈ ls, IsLexeme l) {s : JStr} (h : Written ls s) : Cut s ls := by
  obtain ⟨ts, rfl, hv⟩ := lexemes_tokens hl
  rw [← lex_written hv h]
  exact cut_lex _ s (Nat.le_refl _)

theorem written_close {ls : List JStr} {s : JStr} (h : Written ls s) : Written (ls ++ [j!")"]) (s ++ j!")") := by
  induction h with
  | @nil w hw =>
    have h : Written [j!")"] (w ++ j!")" ++ []) := .cons hw (.nil rfl) rfl
    simpa using h
  | @cons w l r ls hw hr hrun ih =>
    have : w ++ l ++ r ++ j!")" = w ++ l ++ (r ++ j!")") := by simp
    rw [this]
    refine .cons hw ih ?_
    cases r with
    | nil => simp [runsInto, show isNameChar ')' = false from rfl]
    | cons c r => simpa [runsInto] using hrun

theorem written_open {ls : List JStr} {s : JStr} (h : Written ls s) : Written (j!"(" :: ls) (j!"(" ++ s) :=
  .cons (w := []) rfl h (by simp [runsInto, show isNameChar '(' = false from rfl])

/-- **C57** in one text: `(s)` means what `s` means. -/
theorem C57_wrapped {ls : List JStr} (hl : ∀ l ∈ ls, IsLexeme l) {s : JStr} (h : Written ls s) {df : Option JStr}
    (hp : parseExpression s df ≠ .syntaxError) (he : ¬ EndsWithOperator ls) (env : Env) (d : Data) :
    evaluate env (j!"(" ++ (s ++ j!")")) d df = evaluate env s d df ∧
    evaluateArith env (j!"(" ++ (s ++ j!")")) d = evaluateArith env s d := by
  have hw : Cut (j!"(" ++ (s ++ j!")")) (j!"(" :: (ls ++ [j!")"])) := by
    refine written_cut ?_ (written_open (written_close h))
    intro l hl'
    simp only [List.mem_cons, List.mem_append, List.not_mem_nil, or_false] at hl'
    rcases hl' with rfl | hl' | rfl
    · exact .inl ⟨.lparen, by simp [tokenTable]⟩
    · exact hl l hl'
    · exact .inl ⟨.rparen, by simp [tokenTable]⟩
  have := C57_parentheses (written_cut hl h) hw hp he
  exact ⟨this.2.1 env d df, this.2.2 env d⟩

/-- **C57** in one text: `NOT (s)` means the opposite of `s`. -/
theorem C57_wrapped_not {ls : List JStr} (hl : ∀ l ∈ ls, IsLexeme l) {s : JStr} (h : Written ls s) {df : Option JStr}
    (hp : parseExpression s df ≠ .syntaxError) (hc : Compound ls) (he : ¬ EndsWithOperator ls) (env : Env) (d : Data) :
    evaluate env (j!"NOT (" ++ (s ++ j!")")) d df = (evaluate env s d df).negated := by
  have hw : Cut (j!"NOT (" ++ (s ++ j!")")) (j!"NOT" :: j!"(" :: (ls ++ [j!")"])) := by
    have : j!"NOT (" ++ (s ++ j!")") = [] ++ j!"NOT" ++ (j!" " ++ j!"(" ++ (s ++ j!")")) := rfl
    rw [this]
    refine written_cut ?_ (.cons rfl (.cons rfl (written_close h) (by simp [runsInto, show isNameChar '(' = false from rfl])) rfl)
    intro l hl'
    simp only [List.mem_cons, List.mem_append, List.not_mem_nil, or_false] at hl'
    rcases hl' with rfl | rfl | hl' | rfl
    · exact .inl ⟨.kNot, by simp [tokenTable]⟩
    · exact .inl ⟨.lparen, by simp [tokenTable]⟩
    · exact hl l hl'
    · exact .inl ⟨.rparen, by simp [tokenTable]⟩
  exact C57_not (.inl rfl) (written_cut hl h) hw df hp hc he env d

theorem cut_of {s : JStr} {ts : List JStr} (h : (lex s).map Token.text = ts) : Cut s ts :=
  h ▸ cut_lex _ s (Nat.le_refl _)

theorem accepted_of {s : JStr} {df : Option JStr} (h : (parseTokens (lex s)).isSome = true) :
    parseExpression s df ≠ .syntaxError := by
  rw [parseExpression]
  cases e : parseTokens (lex s) with
  | none => rw [e] at h; cases h
  | some t =>
    show Outcome.ofResult (listen df t) ≠ _
    generalize listen df t = r
    cases r <;> simp [Outcome.ofResult]

theorem not_endsWithOperator {pre : List JStr} {t : JStr} {k : TK} (h : Classified t k) (hk : ¬ Dangling k) :
    ¬ EndsWithOperator (pre ++ [t]) := by
  rintro (h0 | ⟨pre', t', k', h1, h2, h3⟩)
  · simp at h0
  · obtain ⟨-, h1⟩ := List.append_inj' h1 rfl
    cases h1
    rw [valid_unique (classified_valid h) (classified_valid (.table h2))] at hk
    exact hk h3

/-- A mixture that groups in unexpected ways is still negated as a whole. -/
example (env : Env) (d : Data) :
    evaluate env j!"NOT (a IN (1, 2) OR b > 5 + 3)" d none = (evaluate env j!"a IN (1, 2) OR b > 5 + 3" d none).negated :=
  C57_not (ts := [j!"a", j!"IN", j!"(", j!"1", j!",", j!"2", j!")", j!"OR", j!"b", j!">", j!"5", j!"+", j!"3"]) (.inl rfl)
    (cut_of (by krfl)) (cut_of (by krfl)) none (accepted_of (by krfl))
    ⟨j!"OR", by simp, .kOr, .table (by simp [tokenTable]), by simp [typesKinds], by simp, by simp⟩
    (not_endsWithOperator (pre := [j!"a", j!"IN", j!"(", j!"1", j!",", j!"2", j!")", j!"OR", j!"b", j!">", j!"5", j!"+"])
      (.integer (by decide +kernel)) (by simp [Dangling, betweenKinds])) env d

example (env : Env) (d : Data) :
    evaluateArith env j!"(10 - 2 + 3)" d = evaluateArith env j!"10 - 2 + 3" d :=
  (C57_parentheses (df := none) (ts := [j!"10", j!"-", j!"2", j!"+", j!"3"]) (cut_of (by krfl)) (cut_of (by krfl))
    (accepted_of (by krfl)) (not_endsWithOperator (pre := [j!"10", j!"-", j!"2", j!"+"])
      (.integer (by decide +kernel)) (by simp [Dangling, betweenKinds]))).2.2 env d

/-- The condition on the end is needed: `NOT` alone and `(NOT)` are different comparisons with the next token. -/
theorem C57_end_needed : ∃ s w : JStr, ∃ ts, Cut s ts ∧ Cut w (j!"(" :: (ts ++ [j!")"])) ∧
    parseExpression s none ≠ .syntaxError ∧ parseExpression w none ≠ parseExpression s none := by
  refine ⟨j!"NOT", j!"(NOT)", [j!"NOT"], cut_of (by krfl), cut_of (by krfl), accepted_of (by krfl), ?_⟩
  have h1 : parseExpression j!"NOT" none = .success (.not_ (.unary .string (.str j!"<EOF>"))) := by krfl
  have h2 : parseExpression j!"(NOT)" none = .success (.not_ (.unary .string (.str j!")"))) := by krfl
  rw [h1, h2]
  simp

end BoolParser
