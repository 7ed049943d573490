import Verif.Props.Grammar
import Verif.Props.Failures
import Verif.Lemmas.Ending
import Verif.Lemmas.Unclosed
import Verif.Lemmas.RecoveryFail
import Verif.Lemmas.Texts
/-!
# Texts outside the grammar

C73 the complete parser on texts of the grammar, C74 trailing input, C75 missing parentheses at the end, C76 how any text
can be refused.

`parseAny`, `evaluateAny` and `evaluateArithAny` are the entry points with ANTLR's error recovery: they give an answer
or a failure for every text. `reportedErrors s` is the number of error messages printed for `s`. `parseExpression`,
`evaluate` and `evaluateArith`, the entry points the other properties are about, say `syntaxError` for texts outside
the grammar.
-/

namespace BoolParser
open Spec

/-! ## C73 Recovery does not change texts of the grammar -/

theorem parseAny_of {s : JStr} {t : Tree} (h : parseTokens (lex s) = some t) (df : Option JStr) :
    parseAny s df = listen df t := by
  rw [parseAny, rParse_of h]
  exact up_listen df t

theorem lex_no_eof (s : JStr) : ∀ u ∈ lex s, u.kind ≠ .eof := by
  intro u hu hk
  have := valid_classified (lex_valid _ s (Nat.le_refl _) u hu)
  rw [hk] at this
  cases this with
  | table hm => simp [tokenTable] at hm

/-- **C73.** On a text of the grammar the parser with error recovery gives what the grammar prescribes: the same node
or the same failure. -/
theorem C73_parse {s : JStr} {df : Option JStr} (h : parseExpression s df ≠ .syntaxError) :
    .ofResult (parseAny s df) = parseExpression s df := by
  rw [parseExpression] at h ⊢
  cases e : parseTokens (lex s) with
  | none => rw [e] at h; exact absurd rfl h
  | some t => rw [parseAny_of e]

theorem andThen_ofResult {α β : Type} (r : Result α) (f : α → Result β) :
    (Outcome.ofResult r).andThen f = .ofResult (r >>= f) := by
  cases r <;> rfl

/-- **C73** for conditions. -/
theorem C73_evaluate (env : Env) {s : JStr} (d : Data) {df : Option JStr} (h : parseExpression s df ≠ .syntaxError) :
    .ofResult (evaluateAny env s d df) = evaluate env s d df := by
  rw [evaluate, ← C73_parse h, andThen_ofResult]; rfl

/-- **C73** for arithmetic. -/
theorem C73_arithmetic (env : Env) {s : JStr} (d : Data) (h : parseExpression s none ≠ .syntaxError) :
    .ofResult (evaluateArithAny env s d) = evaluateArith env s d := by
  rw [evaluateArith, ← C73_parse h, andThen_ofResult]; rfl

/-- **C73**: an error is reported exactly for the texts outside the grammar. -/
theorem C73_reported (s : JStr) (df : Option JStr) : 0 < reportedErrors s ↔ parseExpression s df = .syntaxError := by
  rw [reportedErrors, parseExpression]
  cases e : parseTokens (lex s) with
  | some t =>
    rw [rParse_of e]
    refine ⟨fun h => absurd h (by simp), ?_⟩
    show Outcome.ofResult (listen df t) = _ → _
    generalize listen df t = r
    cases r <;> (intro h; cases h)
  | none =>
    obtain ⟨⟨t, n⟩, h⟩ := rParse_total (lex s)
    rw [h]
    refine ⟨fun _ => rfl, fun _ => ?_⟩
    cases n with
    | succ n => exact Nat.succ_pos n
    | zero =>
      obtain ⟨t', ht⟩ := rParse_silent (lex_no_eof s) h
      rw [e] at ht; cases ht

/-- **C73** against the published grammar: nothing is reported if and only if the kinds of the lexemes form an
`expression`. -/
theorem C73_grammar (s : JStr) :
    reportedErrors s = 0 ↔ ∃ ts ks, Cut s ts ∧ List.Forall₂ Classified ts ks ∧ Expression ks := by
  rw [← C56_accepted s none]
  have := C73_reported s none
  constructor
  · intro h h'
    exact absurd (this.2 h') (by omega)
  · intro h
    by_cases h0 : reportedErrors s = 0
    · exact h0
    · exact absurd (this.1 (Nat.pos_of_ne_zero h0)) h

/-- A text of the grammar with every kind of construct. -/
example (env : Env) (d : Data) :
    .ofResult (evaluateAny env j!"NOT (a 1 TO 5 AND b NOT IN ('x', c)) OR -d + MIN(e, 2) > 3" d none) =
      evaluate env j!"NOT (a 1 TO 5 AND b NOT IN ('x', c)) OR -d + MIN(e, 2) > 3" d none :=
  C73_evaluate env d (accepted_of (by krfl))

example : reportedErrors j!"a = 5" = 0 := by krfl
example : reportedErrors j!"a = 5)" = 1 := by krfl
/-- Two independent mistakes, two messages. -/
example : reportedErrors j!"a 1 5 AND b NOT (2) OR c = 1" = 2 := by krfl

/-! ## C74 Trailing input -/

/-- The text ends with a field name. -/
def EndsWithName (ts : List JStr) : Prop := ∃ pre f, ts = pre ++ [f] ∧ Classified f .field

/-- The text ends with a sign before a field name: at the beginning or after an operator a minus, then possibly more
minus signs and NOTs, then the name. -/
def EndsWithSignedName (ts : List JStr) : Prop :=
  ∃ pre mids f, ts = pre ++ j!"-" :: (mids ++ [f]) ∧ EndsWithOperator pre ∧
    (∀ m ∈ mids, m = j!"NOT" ∨ m = j!"not" ∨ m = j!"-") ∧ Classified f .field

/-- The kinds of token that continue a field name: ranges, lists. -/
def continuesName : List TK := [.integer, .decimal, .kIn, .kNot, .cAll, .cAny]

theorem sub_text {t : JStr} (h : Classified t (.arith .sub)) : t = j!"-" := by
  cases h with
  | table hm =>
    simp only [tokenTable, List.mem_cons, Prod.mk.injEq, List.not_mem_nil, or_false, reduceCtorEq, and_false, and_true,
      false_or, TK.arith.injEq] at hm
    exact hm

theorem not_text {t : JStr} (h : Classified t .kNot) : t = j!"NOT" ∨ t = j!"not" := by
  cases h with
  | table hm =>
    simp only [tokenTable, List.mem_cons, Prod.mk.injEq, List.not_mem_nil, or_false, reduceCtorEq, and_false, and_true,
      false_or] at hm
    exact hm

theorem opened_text {pre : List Token} (hv : ∀ t ∈ pre, ValidTok t) (h : Opened pre) :
    EndsWithOperator (pre.map Token.text) := by
  rcases h with rfl | ⟨p, u, rfl, hd⟩
  · exact .inl rfl
  · exact .inr ⟨p.map Token.text, u.text, u.kind, by simp,
      dangling_table (valid_classified (hv u (by simp))) hd, hd⟩

theorem signEnd_text {us : List Token} (hv : ∀ t ∈ us, ValidTok t) (h : SignEnd us) :
    EndsWithSignedName (us.map Token.text) := by
  obtain ⟨pre, m, r, rfl, h1, h2, mids, u, rfl, h3, h4⟩ := h
  refine ⟨pre.map Token.text, mids.map Token.text, u.text, ?_, opened_text (fun t ht => hv t (by simp [ht])) h1, ?_, ?_⟩
  · have hm := valid_classified (hv m (by simp))
    rw [h2] at hm
    simp [sub_text hm]
  · intro x hx
    obtain ⟨v, hv', rfl⟩ := List.mem_map.1 hx
    have hc := valid_classified (hv v (by simp [hv']))
    rcases h3 v hv' with hk | hk
    · rw [hk] at hc
      exact (not_text hc).imp id .inl
    · rw [hk] at hc
      exact .inr (.inr (sub_text hc))
  · have := valid_classified (hv u (by simp))
    rw [h4] at this; exact this

theorem calm_of {s : JStr} {ts : List JStr} {t : Tree} (h : Cut s ts) (hp : parseTokens (lex s) = some t)
    (he : ¬ EndsWithOperator ts) (hs : ¬ EndsWithSignedName ts) : t.calm = true := by
  by_cases hc : t.calm = true
  · exact hc
  · obtain ⟨f, hf⟩ := parseTokens_iff.1 hp
    have := signEnd_text (lex_valid _ s (Nat.le_refl _))
      (expr_calm f _ _ _ hf (closed_of h hp he) (Bool.eq_false_iff.mpr hc))
    rw [cut_unique h] at this
    exact absurd this hs

theorem fits_of {s : JStr} {ts : List JStr} {t : Tree} (h : Cut s ts) (hp : parseTokens (lex s) = some t) {k : TK}
    (hk : k ∈ continuesName → ¬ EndsWithName ts) : Fits k (t, []) := by
  by_cases hx : t.endsName = true
  · refine .inl ?_
    obtain ⟨f, hf⟩ := parseTokens_iff.1 hp
    obtain ⟨pre, u, hu, hk'⟩ := expr_endsName f _ _ _ hf hx
    have hn : EndsWithName ts := by
      refine ⟨pre.map Token.text, u.text, by rw [← cut_unique h, hu]; simp, ?_⟩
      have := valid_classified (lex_valid _ s (Nat.le_refl _) u (by rw [hu]; simp))
      rw [hk'] at this; exact this
    cases k <;> first | rfl | exact absurd hn (hk (by simp [continuesName]))
  · exact .inr (.inr (Bool.eq_false_iff.mpr hx))

theorem binTok_none {k : TK} (h : k ∉ betweenKinds) : binTok k = none := by
  cases e : binTok k with
  | none => rfl
  | some b =>
    rcases binTok_dangling e with h' | rfl
    · exact absurd h' h
    · cases e

theorem classified_of {t : JStr} {k : TK} (h : lex t = [⟨k, t⟩]) : Classified t k :=
  valid_classified (lex_valid _ t (Nat.le_refl _) ⟨k, t⟩ (by rw [h]; simp))

/-- Two texts, one after the other. -/
theorem lex_joined {s w : JStr} {ts : List JStr} (h : Cut s ts) {gs : List JStr} {ks : List TK}
    (hw : Cut w (ts ++ gs)) (hk : List.Forall₂ Classified gs ks) :
    ∃ us, lex w = lex s ++ us ∧ us.map Token.text = gs ∧ us.map Token.kind = ks := by
  obtain ⟨us, h1, h2, hv⟩ : ∃ us : List Token, us.map Token.text = gs ∧ us.map Token.kind = ks ∧ ∀ t ∈ us, ValidTok t := by
    clear hw
    induction hk with
    | nil => exact ⟨[], rfl, rfl, nofun⟩
    | @cons g k gs ks hc _ ih =>
      obtain ⟨us, h1, h2, hv⟩ := ih
      refine ⟨⟨k, g⟩ :: us, by simp [h1], by simp [h2], ?_⟩
      intro t ht
      rcases List.mem_cons.1 ht with rfl | ht
      · exact classified_valid hc
      · exact hv t ht
  refine ⟨us, ?_, h1, h2⟩
  have := lex_wrapped (pre := []) (post := us) h nofun hv (by simpa [h1] using hw)
  simpa using this

/-- What the parser makes of a complete expression followed by something that cannot continue it. -/
theorem rParse_trailing {s w : JStr} {ts gs : List JStr} {g : JStr} {k : TK} {ks : List TK} (h : Cut s ts)
    (hw : Cut w (ts ++ g :: gs)) (hg : List.Forall₂ Classified (g :: gs) (k :: ks)) {t : Tree}
    (hp : parseTokens (lex s) = some t) (he : ¬ EndsWithOperator ts) (hs : ¬ EndsWithSignedName ts)
    (hk : k ∉ betweenKinds) (hn : k ∈ continuesName → ¬ EndsWithName ts) :
    (∃ n, rParse (lex w) = some (t.up, n)) ∧ parseTokens (lex w) = none := by
  obtain ⟨us, hl, -, h2⟩ := lex_joined h hw hg
  cases us with
  | nil => cases h2
  | cons u us =>
    simp only [List.map_cons, List.cons.injEq] at h2
    obtain ⟨f, hf⟩ := parseTokens_iff.1 hp
    have hu : binTok u.kind = none := by rw [h2.1]; exact binTok_none hk
    have hx := (parse_local hu us f).1 0 _ _ hf (closed_of h hp he) (by rw [h2.1]; exact fits_of h hp hn)
    rw [← hl] at hx
    refine ⟨rParse_before hx (calm_of h hp he hs), ?_⟩
    rw [parseTokens, show parseFuel (lex w) = 4 * (lex w).length + 4 from rfl, pExpr_mono (Nat.le_succ _) (pExpr_before hx)]
    rfl

/-- **C74.** Whatever follows a complete expression is ignored, as long as it does not begin with an operator: the
text evaluates as if it ended before. An error is printed, but the caller does not learn of it. (After a field name
the rest must also not begin with a number, IN, NOT or CONTAINS; and the expression must not end with a minus sign
before a field name.) -/
theorem C74_trailing {s w : JStr} {ts gs : List JStr} {g : JStr} {k : TK} {ks : List TK} (h : Cut s ts)
    (hw : Cut w (ts ++ g :: gs)) (hg : List.Forall₂ Classified (g :: gs) (k :: ks))
    (hp : parseExpression s none ≠ .syntaxError) (he : ¬ EndsWithOperator ts) (hs : ¬ EndsWithSignedName ts)
    (hk : k ∉ betweenKinds) (hn : k ∈ continuesName → ¬ EndsWithName ts) :
    (∀ df, .ofResult (parseAny w df) = parseExpression s df) ∧
    (∀ env d df, .ofResult (evaluateAny env w d df) = evaluate env s d df) ∧
    (∀ env d, .ofResult (evaluateArithAny env w d) = evaluateArith env s d) ∧
    0 < reportedErrors w := by
  cases e : parseTokens (lex s) with
  | none => rw [parseExpression, e] at hp; exact absurd rfl hp
  | some t =>
    obtain ⟨⟨n, h1⟩, h2⟩ := rParse_trailing h hw hg e he hs hk hn
    have key : ∀ df, .ofResult (parseAny w df) = parseExpression s df := by
      intro df
      rw [parseAny, h1, parseExpression, e]
      simp only
      rw [up_listen]
    refine ⟨key, ?_, ?_, (C73_reported w none).2 (by rw [parseExpression, h2])⟩
    · intro env d df
      rw [evaluate, ← key, andThen_ofResult]; rfl
    · intro env d
      rw [evaluateArith, ← key, andThen_ofResult]; rfl

/-- `a = 5) OR (b = 6` is `a = 5`: the rest, a whole condition, is dropped. -/
example : ∀ env d, .ofResult (evaluateAny env j!"a = 5) OR (b = 6" d none) = evaluate env j!"a = 5" d none := by
  have h : Cut j!"a = 5" [j!"a", j!"=", j!"5"] := cut_of (by krfl)
  have hw : Cut j!"a = 5) OR (b = 6"
      ([j!"a", j!"=", j!"5"] ++ j!")" :: [j!"OR", j!"(", j!"b", j!"=", j!"6"]) := cut_of (by krfl)
  have hg : List.Forall₂ Classified (j!")" :: [j!"OR", j!"(", j!"b", j!"=", j!"6"])
      (.rparen :: [.kOr, .lparen, .field, .cmp .eq, .integer]) :=
    .cons (.table (by decide +kernel)) (.cons (.table (by decide +kernel)) (.cons (.table (by decide +kernel))
      (.cons (classified_of (by krfl)) (.cons (.table (by decide +kernel)) (.cons (classified_of (by krfl)) .nil)))))
  refine fun env d => (C74_trailing h hw hg (accepted_of (by krfl)) ?_ ?_ (by decide) ?_).2.1 env d none
  · exact not_endsWithOperator (pre := [j!"a", j!"="]) (classified_of (k := .integer) (by krfl))
      (by simp [Dangling, betweenKinds])
  · rintro ⟨pre, mids, f, he, -, -, -⟩
    have : j!"-" ∈ [j!"a", j!"=", j!"5"] := by rw [he]; simp
    exact absurd this (by decide)
  · intro hc; exact absurd hc (by decide)

/-- The claim that a text outside the grammar is refused is false: such a text can evaluate to `true`. -/
theorem C74_not_refused (env : Env) :
    ∃ s d, 0 < reportedErrors s ∧ parseExpression s none = .syntaxError ∧ evaluateAny env s d none = .ok true := by
  refine ⟨j!"a = 5) AND b = 6", [(j!"a", .int 5)], ?_, ?_, by krfl⟩
  · rw [show reportedErrors j!"a = 5) AND b = 6" = 1 by krfl]; exact Nat.one_pos
  · krfl

/-- The condition on signs is needed: after a signed name the parser tries to read `- b` as a subtraction and gives
up, where `-a` alone is an expression. -/
example : reportedErrors j!"-a" = 0 ∧ (parseAny j!"-a b" none).toOption = none :=
  ⟨by krfl, by krfl⟩

/-! ## C75 Missing closing parentheses -/

/-- The kinds of token with which an operand ends: names, literals, `)`. -/
def operandKinds : List TK := .rparen :: typesKinds

/-- The text ends with an operand. -/
def EndsWithOperand (ts : List JStr) : Prop := ∃ pre t k, ts = pre ++ [t] ∧ Classified t k ∧ k ∈ operandKinds

/-- After these lexemes an operand is expected: a `-` here is a sign, not a subtraction. -/
def ExpectsOperand (pre : List JStr) : Prop :=
  pre = [] ∨ ∃ pre' t k, pre = pre' ++ [t] ∧ Classified t k ∧ k ∉ operandKinds

/-- Every sign stands directly before a literal. -/
def SignsOnLiterals (ts : List JStr) : Prop :=
  ∀ pre rest, ts = pre ++ j!"-" :: rest → ExpectsOperand pre →
    ∃ l k rest', rest = l :: rest' ∧ Classified l k ∧ k ∈ typesKinds ∧ k ≠ .field

/-- A function call whose parenthesis is never closed. -/
def FunctionLeftOpen (ts : List JStr) : Prop :=
  ∃ pre g f rest, ts = pre ++ g :: j!"(" :: rest ∧ Classified g (.fn f) ∧
    ∀ q q', rest = q ++ q' → q.count j!")" ≤ q.count j!"("

theorem operandEnd_of {k : TK} (h : k ∈ operandKinds) : operandEnd k = true := by
  simp only [operandKinds, typesKinds, List.mem_cons, List.not_mem_nil, or_false] at h
  rcases h with rfl | rfl | rfl | rfl | rfl | rfl | rfl | rfl | rfl | rfl <;> rfl

theorem operandEnd_not {k : TK} (h : operandEnd k = false) : k ∉ operandKinds :=
  fun h' => by rw [operandEnd_of h'] at h; cases h

theorem solid_of {s : JStr} {ts : List JStr} (h : Cut s ts) (he : EndsWithOperand ts) :
    lex s ≠ [] ∧ solid (lex s) = true := by
  obtain ⟨pre, t, k, rfl, hc, hk⟩ := he
  have hm := cut_unique h
  obtain ⟨a, b, hab, ha, hb⟩ := List.map_eq_append_iff.1 hm
  obtain ⟨u, hu, hu'⟩ : ∃ u, b = [u] ∧ u.text = t := by
    match b, hb with
    | [u], hb => exact ⟨u, rfl, by simpa using hb⟩
  have hv := valid_classified (lex_valid _ s (Nat.le_refl _) u (by rw [hab, hu]; simp))
  rw [hu'] at hv
  rw [hab, hu]
  refine ⟨by simp, ?_⟩
  simp only [solid, List.getLast?_append, List.getLast?_singleton, Option.some_or]
  rw [classified_one hv hc]
  exact operandEnd_of hk

theorem lit_kind {k : TK} (h : k ∈ typesKinds) (hf : k ≠ .field) : isLitKind k = true := by
  simp only [typesKinds, List.mem_cons, List.not_mem_nil, or_false] at h
  rcases h with rfl | rfl | rfl | rfl | rfl | rfl | rfl | rfl | rfl <;> first | rfl | exact absurd rfl hf

theorem signs_of (us : List Token) : ∀ (pre : List Token) (o : Bool), (∀ t ∈ pre ++ us, ValidTok t) →
    SignsOnLiterals ((pre ++ us).map Token.text) → (o = true → ExpectsOperand (pre.map Token.text)) →
    signs o us = true := by
  induction us with
  | nil => intros; rfl
  | cons u us ih =>
    intro pre o hv hs ho
    rw [signs, Bool.and_eq_true]
    have hu := valid_classified (hv u (by simp))
    constructor
    · by_cases hm : o = true ∧ u.kind = .arith .sub
      · rw [hm.2] at hu
        obtain ⟨l, k, rest', h1, h2, h3, h4⟩ := hs (pre.map Token.text) (us.map Token.text)
          (by simp [sub_text hu]) (ho hm.1)
        have : startsLit us = true := by
          cases us with
          | nil => cases h1
          | cons v vs =>
            simp only [List.map_cons, List.cons.injEq] at h1
            have hv' := valid_classified (hv v (by simp))
            rw [h1.1] at hv'
            show isLitKind v.kind = true
            rw [classified_one hv' h2]
            exact lit_kind h3 h4
        simp [this]
      · have : (o && u.kind == .arith .sub) = false := by
          cases o with
          | false => rfl
          | true => simpa using fun h => hm ⟨rfl, h⟩
        rw [this]; rfl
    · refine ih (pre ++ [u]) _ (by simpa using hv) (by simpa using hs) ?_
      intro h
      exact .inr ⟨pre.map Token.text, u.text, u.kind, by simp, hu, operandEnd_not (by simpa using h)⟩

theorem count_text {us : List Token} (hv : ∀ t ∈ us, ValidTok t) {k : TK} {x : JStr} (hx : Classified x k)
    (hk : ∀ t, Classified t k → t = x) : (us.map Token.text).count x = (us.map Token.kind).count k := by
  induction us with
  | nil => rfl
  | cons u us ih =>
    have hu := valid_classified (hv u (by simp))
    rw [List.map_cons, List.map_cons, List.count_cons, List.count_cons, ih fun t ht => hv t (by simp [ht])]
    congr 1
    by_cases h : u.kind = k
    · rw [h] at hu; simp [h, hk _ hu]
    · have : u.text ≠ x := fun h' => h (classified_one (h' ▸ hu) hx)
      simp [h, this]

theorem lparen_text {t : JStr} (h : Classified t .lparen) : t = j!"(" := by
  cases h with
  | table hm =>
    simp only [tokenTable, List.mem_cons, Prod.mk.injEq, List.not_mem_nil, or_false, reduceCtorEq, and_false, and_true,
      false_or] at hm
    exact hm

theorem rparen_text {t : JStr} (h : Classified t .rparen) : t = j!")" := by
  cases h with
  | table hm =>
    simp only [tokenTable, List.mem_cons, Prod.mk.injEq, List.not_mem_nil, or_false, reduceCtorEq, and_false, and_true,
      false_or] at hm
    exact hm

theorem fnOpen_text {us : List Token} (hv : ∀ t ∈ us, ValidTok t) (h : FnOpen us) :
    FunctionLeftOpen (us.map Token.text) := by
  obtain ⟨pre, g, u, rest, f, rfl, h1, h2, h3⟩ := h
  have hg := valid_classified (hv g (by simp))
  have hu := valid_classified (hv u (by simp))
  rw [h1] at hg
  rw [h2] at hu
  refine ⟨pre.map Token.text, g.text, f, rest.map Token.text, by simp [lparen_text hu], hg, ?_⟩
  intro q q' hq
  obtain ⟨a, b, rfl, rfl, -⟩ := List.map_eq_append_iff.1 hq
  have hva : ∀ t ∈ a, ValidTok t := fun t ht => hv t (by simp [ht])
  rw [count_text hva (valid_classified valid_rparen) fun _ => rparen_text,
    count_text hva (valid_classified valid_lparen) fun _ => lparen_text]
  exact h3 (a.map Token.kind) (b.map Token.kind) (by simp)

/-- **C75.** Closing parentheses missing at the end of a text are supplied: the text is parsed as if they were there
(`w`). The exception is a function call left open, which may be refused with InvalidExpression. (The text has to end
with an operand, and signs have to stand before literals.) -/
theorem C75_unclosed {s w : JStr} {ts : List JStr} {n : Nat} (h : Cut s ts) (hw : Cut w (ts ++ List.replicate n j!")"))
    (hp : parseExpression w none ≠ .syntaxError) (he : EndsWithOperand ts) (hs : SignsOnLiterals ts) (df : Option JStr) :
    .ofResult (parseAny s df) = parseExpression w df ∨
    (FunctionLeftOpen ts ∧ parseAny s df = .error .invalidExpression) := by
  have hk : List.Forall₂ Classified (List.replicate n j!")") (List.replicate n .rparen) := by
    clear hw
    induction n with
    | zero => exact .nil
    | succ n ih => exact .cons (.table (by decide +kernel)) ih
  obtain ⟨us, hl, -, h2⟩ := lex_joined h hw hk
  have hC : ∀ u ∈ us, u.kind = .rparen := by
    intro u hu
    have : u.kind ∈ List.replicate n TK.rparen := by rw [← h2]; exact List.mem_map_of_mem hu
    exact List.eq_of_mem_replicate this
  cases e : parseTokens (lex w) with
  | none => rw [parseExpression, e] at hp; exact absurd rfl hp
  | some t =>
    rw [hl] at e
    have hv := lex_valid _ s (Nat.le_refl _)
    have hso := solid_of h he
    have hsg : signs true (lex s) = true :=
      signs_of (lex s) [] true (by simpa using hv) (by rw [List.nil_append, cut_unique h]; exact hs) fun _ => .inl rfl
    obtain ⟨t', m, h3, b, h4, h5⟩ := rParse_unclosed hC e hso.1 hso.2 hsg
    rcases mended_listen df h4 with h6 | ⟨hb, h6⟩
    · left
      rw [parseAny, h3, parseExpression, hl, e]
      simp only
      rw [h6]
    · right
      refine ⟨?_, by rw [parseAny, h3]; exact h6⟩
      have := fnOpen_text hv (h5 hb)
      rwa [cut_unique h] at this

/-- **C75**: without an open function call the text means what the closed text means, and (if a parenthesis is
missing) an error is reported. -/
theorem C75_same {s w : JStr} {ts : List JStr} {n : Nat} (h : Cut s ts) (hw : Cut w (ts ++ List.replicate n j!")"))
    (hp : parseExpression w none ≠ .syntaxError) (he : EndsWithOperand ts) (hs : SignsOnLiterals ts)
    (hf : ¬ FunctionLeftOpen ts) :
    (∀ df, .ofResult (parseAny s df) = parseExpression w df) ∧
    (∀ env d df, .ofResult (evaluateAny env s d df) = evaluate env w d df) ∧
    (∀ env d, .ofResult (evaluateArithAny env s d) = evaluateArith env w d) ∧
    (n ≠ 0 → 0 < reportedErrors s) := by
  have key : ∀ df, .ofResult (parseAny s df) = parseExpression w df := fun df =>
    (C75_unclosed h hw hp he hs df).resolve_right fun h => hf h.1
  refine ⟨key, ?_, ?_, ?_⟩
  · intro env d df
    rw [evaluate, ← key, andThen_ofResult]; rfl
  · intro env d
    rw [evaluateArith, ← key, andThen_ofResult]; rfl
  · intro hn
    refine (C73_reported s none).2 ?_
    by_cases hs' : parseExpression s none = .syntaxError
    · exact hs'
    · have h1 := C56_balanced h hs'
      have h2 := C56_balanced hw hp
      rw [List.count_append, List.count_append, h1, List.count_replicate, List.count_replicate] at h2
      have h3 : (j!")" == j!"(") = false := by decide
      have h4 : (j!")" == j!")") = true := by decide
      rw [h3, h4] at h2
      simp only [if_true, Bool.false_eq_true, if_false] at h2
      omega

theorem literal_signs {ts : List JStr} (h : j!"-" ∉ ts) : SignsOnLiterals ts := by
  intro pre rest he
  rw [he] at h
  exact absurd (by simp) h

theorem no_function {ts : List JStr} (ht : ∀ t ∈ ts, ∀ f, ¬ Classified t (.fn f)) : ¬ FunctionLeftOpen ts := by
  rintro ⟨pre, g, f, rest, rfl, h, -⟩
  exact ht g (by simp) f h

theorem one_kind {t : JStr} {k : TK} (h : lex t = [⟨k, t⟩]) (hk : ∀ f, k ≠ .fn f) : ∀ f, ¬ Classified t (.fn f) :=
  fun f h' => hk f (classified_one (classified_of h) h')

/-- `(a = 5 OR (b IN (1, 2` reads as `(a = 5 OR (b IN (1, 2)))`. -/
example : ∀ env d, .ofResult (evaluateAny env j!"(a = 5 OR (b IN (1, 2" d none) =
    evaluate env j!"(a = 5 OR (b IN (1, 2)))" d none := by
  have h : Cut j!"(a = 5 OR (b IN (1, 2"
      [j!"(", j!"a", j!"=", j!"5", j!"OR", j!"(", j!"b", j!"IN", j!"(", j!"1", j!",", j!"2"] := cut_of (by krfl)
  have hw : Cut j!"(a = 5 OR (b IN (1, 2)))"
      ([j!"(", j!"a", j!"=", j!"5", j!"OR", j!"(", j!"b", j!"IN", j!"(", j!"1", j!",", j!"2"] ++
        List.replicate 3 j!")") := cut_of (by krfl)
  refine fun env d => (C75_same h hw (accepted_of (by krfl)) ?_ (literal_signs (by decide)) ?_).2.1 env d none
  · exact ⟨[j!"(", j!"a", j!"=", j!"5", j!"OR", j!"(", j!"b", j!"IN", j!"(", j!"1", j!","], j!"2", .integer, rfl,
      classified_of (by krfl), by simp [operandKinds, typesKinds]⟩
  · refine no_function fun t ht => ?_
    simp only [List.mem_cons, List.not_mem_nil, or_false] at ht
    rcases ht with rfl | rfl | rfl | rfl | rfl | rfl | rfl | rfl | rfl | rfl | rfl | rfl
    · exact one_kind (k := .lparen) (by krfl) nofun
    · exact one_kind (k := .field) (by krfl) nofun
    · exact one_kind (k := .cmp .eq) (by krfl) nofun
    · exact one_kind (k := .integer) (by krfl) nofun
    · exact one_kind (k := .kOr) (by krfl) nofun
    · exact one_kind (k := .lparen) (by krfl) nofun
    · exact one_kind (k := .field) (by krfl) nofun
    · exact one_kind (k := .kIn) (by krfl) nofun
    · exact one_kind (k := .lparen) (by krfl) nofun
    · exact one_kind (k := .integer) (by krfl) nofun
    · exact one_kind (k := .comma) (by krfl) nofun
    · exact one_kind (k := .integer) (by krfl) nofun

/-- The conditions are needed. An open function call is refused, though not always; a sign before an open
parenthesis or before a name at the end is not understood. -/
example : (parseAny j!"MIN(1, 2" none).toOption = none := by krfl
example : (parseAny j!"MIN(2 + (1 + 1" none).toOption.isSome = true := by krfl
example : (parseAny j!"-(a + 5" none).toOption = none ∧ (parseAny j!"(3 > -a" none).toOption = none := ⟨by krfl, by krfl⟩

/-! ## C76 How any text can be refused -/

/-- **C76.** Any text whatsoever, well-formed or not, that is refused before data are looked at is refused in one of
five ways: as an invalid expression, with an empty stack, a class cast or a null pointer, or with a number format
failure; the latter only if the text contains a whole number beyond 64 bits. -/
theorem C76_refusals {s : JStr} {ts : List JStr} (h : Cut s ts) {df : Option JStr} {e : Exn}
    (he : parseAny s df = .error e) :
    e = .invalidExpression ∨ e = .emptyStack ∨ e = .classCast ∨ e = .nullPointer ∨
    (e = .numberFormat ∧ ∃ t ∈ ts, TooLarge t) := by
  rcases parseAny_within (fun t ht => (cut_texts h ht).2) he with he | he | he | he | ⟨he, t, ht, hl⟩
  · exact .inl he
  · exact .inr (.inl he)
  · exact .inr (.inr (.inl he))
  · exact .inr (.inr (.inr (.inl he)))
  · exact .inr (.inr (.inr (.inr ⟨he, t.text, (cut_texts h ht).1, hl⟩)))

/-- **C76**: a null pointer betrays a text outside the grammar. -/
theorem C76_null {s : JStr} {ts : List JStr} (h : Cut s ts) {df : Option JStr}
    (he : parseAny s df = .error .nullPointer) : parseExpression s df = .syntaxError := by
  by_contra hs
  have := C73_parse hs
  rw [he] at this
  rcases C64_refusals h this.symm with h | h | h | ⟨h, -⟩ <;> cases h

/-- **C76**: a refused text is refused alike with all data, by both evaluators. -/
theorem C76_all_data {s : JStr} {df : Option JStr} {e : Exn} (he : parseAny s df = .error e) (env : Env) (d : Data) :
    evaluateAny env s d df = .error e ∧ (df = none → evaluateArithAny env s d = .error e) := by
  refine ⟨by rw [evaluateAny, he]; rfl, ?_⟩
  rintro rfl
  rw [evaluateArithAny, he]; rfl

/-- **C76**: a malformed text whose whole numbers fit 64 bits never fails with a number format before evaluation. -/
theorem C76_numbers {s : JStr} {ts : List JStr} (h : Cut s ts) (hn : ∀ t ∈ ts, ¬ TooLarge t) (df : Option JStr) :
    parseAny s df ≠ .error .numberFormat := by
  intro he
  rcases C76_refusals h he with he | he | he | he | ⟨_, t, ht, hl⟩
  · cases he
  · cases he
  · cases he
  · cases he
  · exact hn t ht hl

/-- All five do occur on malformed texts. -/
example : parseAny j!"MIN(1, 2" none = .error .invalidExpression := by krfl
example : parseAny j!"a + (b" none = .error .emptyStack := by krfl
example : parseAny j!"-(a)) b" none = .error .classCast := by krfl
example : parseAny j!"a 5" none = .error .nullPointer := by krfl
example : parseAny j!"9223372036854775808 + 1)" none = .error .numberFormat := by krfl

/-- A malformed text refused whatever the data. -/
example (env : Env) (d : Data) : evaluateAny env j!"a 5" d none = .error .nullPointer :=
  (C76_all_data (by krfl) env d).1

end BoolParser
