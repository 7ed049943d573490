import Verif.Lemmas.AnyText
import Verif.Props.Failures
/-!
# C82 What holds of accepted texts holds of malformed ones

No text is refused for being outside the grammar: the parser repairs it (C73–C76). Whatever it makes of a text, the
outcome depends on the names the text mentions only (C17), on the clock and the power function only if the text asks
for them (C59), is kept when fields are added (C60), and fails for missing data only if a mentioned name has no value
(C63).

`evaluateAny` and `evaluateArithAny` are the two evaluators on any text at all, `Cut s ts` says that the lexer cuts `s`
into `ts` (C38), the names mentioned are described in `Verif/Spec/Mentions.lean`.
-/

namespace BoolParser
open Spec

theorem mentions_lexeme {s : JStr} {ts : List JStr} (h : Cut s ts) (df : Option JStr) {t : Token} (ht : t ∈ lex s) :
    Mentions ts df t.text := by
  obtain ⟨h1, h2⟩ := cut_texts h ht
  by_cases hc : Classified t.text .field
  · exact .inl ⟨h1, hc⟩
  · exact .inr (.inr (.inl ⟨h1, hc⟩))

theorem mentions_value {s : JStr} {ts : List JStr} (h : Cut s ts) (df : Option JStr) {t : Token} (ht : t ∈ lex s)
    {dt : DataType} (hd : dt = tokType t ∨ dt = .string) {v : Value} (hv : convertValue t.text dt = .ok v)
    (hb : dt ≠ .boolean) (hn : v ≠ .null) : Mentions ts df v.text := by
  obtain ⟨h1, h2⟩ := cut_texts h ht
  rcases convert_name h1 h2 hd hv hb hn with h3 | ⟨q, hq, h3⟩ | h3
  · rw [h3]; exact mentions_lexeme h df ht
  · exact .inr (.inr (.inr (.inl ⟨q, hq, h3 ▸ h1⟩)))
  · exact .inr (.inr (.inr (.inr (.inl h3))))

theorem mentions_end (ts : List JStr) (df : Option JStr) : Mentions ts df j!"<EOF>" := .inr (.inr (.inr (.inr (.inr rfl))))

theorem end_value {dt : DataType} (hd : dt = tokType eofTok ∨ dt = .string) {v : Value}
    (hv : convertValue eofTok.text dt = .ok v) (ts : List JStr) (df : Option JStr) : Mentions ts df v.text := by
  rw [convert_eofTok hd hv]; exact mentions_end ts df

theorem any_same {s : JStr} {ts : List JStr} (h : Cut s ts) (env : Env) {d d' : Data} {df : Option JStr}
    (ha : ∀ f, Mentions ts df f → SameAt f d d') {b : Bool} :
    TokSelf (V0 env env d d' b) eofTok ∧ ∀ t ∈ lex s, TokSelf (V0 env env d d' b) t :=
  ⟨tok_self (sameAt_lookup (ha _ (mentions_end ts df))) (fun _ _ hd hv _ _ => sameAt_lookup (ha _ (end_value hd hv ts df)))
    (tokEnv_refl env _),
   fun t ht => tok_self (sameAt_lookup (ha _ (mentions_lexeme h df ht)))
    (fun _ _ hd hv hb hn => sameAt_lookup (ha _ (mentions_value h df ht hd hv hb hn))) (tokEnv_refl env _)⟩

/-- **C82**, which data matter: two data maps that agree on the names a text mentions give the same outcome, well-formed
or not. -/
theorem C82_mentioned_names {s : JStr} {ts : List JStr} (h : Cut s ts) (env : Env) {d d' : Data} {df : Option JStr}
    (ha : ∀ f, Mentions ts df f → SameAt f d d') : evaluateAny env s d df = evaluateAny env s d' df :=
  evaluateAny_tok (fun f hf => sameAt_lookup (ha f (.inr (.inl hf)))) (any_same h env ha).1 (any_same h env ha).2

/-- **C82**, which data matter, arithmetic evaluator. -/
theorem C82_mentioned_names_arith {s : JStr} {ts : List JStr} (h : Cut s ts) (env : Env) {d d' : Data}
    (ha : ∀ f, Mentions ts none f → SameAt f d d') : evaluateArithAny env s d = evaluateArithAny env s d' :=
  evaluateArithAny_tok (any_same h env ha).1 (any_same h env ha).2

/-- **C82**, the clock and the power function: they matter only if DAYS_ELAPSED or `^` occurs, the clock only for the
one and the power function only for the other. -/
theorem C82_environment {s : JStr} {ts : List JStr} (h : Cut s ts) {env env' : Env}
    (h1 : (j!"DAYS_ELAPSED" ∈ ts ∨ j!"days_elapsed" ∈ ts) → env.today = env'.today)
    (h2 : j!"^" ∈ ts → env.powL = env'.powL ∧ env.powD = env'.powD) (d : Data) (df : Option JStr) :
    evaluateAny env s d df = evaluateAny env' s d df ∧ evaluateArithAny env s d = evaluateArithAny env' s d := by
  have key : ∀ {b : Bool}, ∀ t ∈ lex s, TokSelf (V0 env env' d d b) t := by
    intro b t ht
    obtain ⟨h3, h4⟩ := cut_texts h ht
    refine tok_self rfl (fun _ _ _ _ _ _ => rfl) ⟨fun f hk => callFn_env ?_, fun o hk => arithBinary_env ?_⟩
    · rintro rfl
      rcases days_lexeme h4 hk with h5 | h5
      · exact h1 (.inl (h5 ▸ h3))
      · exact h1 (.inr (h5 ▸ h3))
    · rintro rfl
      exact h2 (pow_lexeme h4 hk ▸ h3)
  have he : ∀ {b : Bool}, TokSelf (V0 env env' d d b) eofTok := tok_self rfl (fun _ _ _ _ _ _ => rfl) (eof_env env env')
  exact ⟨evaluateAny_tok (fun _ _ => rfl) he key, evaluateArithAny_tok he key⟩

theorem any_kept {s : JStr} {ts : List JStr} (h : Cut s ts) {d d' : Data} {df : Option JStr}
    (hn : ∀ t ∈ ts, lower t ≠ j!"null") (hk : ∀ f, Mentions ts df f → KeptAt f d d') :
    TokSelf (V1 d d') eofTok ∧ ∀ t ∈ lex s, TokSelf (V1 d d') t :=
  ⟨tok_keptSelf (by intro h; cases h) (fun v => keptAt_lookup (hk _ (mentions_end ts df)))
    (fun _ _ hd hv _ _ w => keptAt_lookup (hk _ (end_value hd hv ts df))),
   fun t ht => tok_keptSelf (fun _ => by simpa using hn _ (cut_texts h ht).1)
    (fun v => keptAt_lookup (hk _ (mentions_lexeme h df ht)))
    (fun _ _ hd hv hb hn w => keptAt_lookup (hk _ (mentions_value h df ht hd hv hb hn)))⟩

/-- **C82**, more data: an answer to a text without the word null is kept if the values under the mentioned names are. -/
theorem C82_more_data {s : JStr} {ts : List JStr} (h : Cut s ts) (env : Env) {d d' : Data} {df : Option JStr}
    (hn : ∀ t ∈ ts, lower t ≠ j!"null") (hdn : ∀ f, df = some f → lower f ≠ j!"null")
    (hk : ∀ f, Mentions ts df f → KeptAt f d d') {b : Bool} (hb : evaluateAny env s d df = .ok b) :
    evaluateAny env s d' df = .ok b :=
  evaluateAny_kept (fun f hf => ⟨rfl, fun v => keptAt_lookup (hk f (.inr (.inl hf))), by simpa using hdn f hf⟩)
    (any_kept h hn hk).1 (any_kept h hn hk).2 hb

/-- **C82**, more data, arithmetic evaluator. -/
theorem C82_more_data_arith {s : JStr} {ts : List JStr} (h : Cut s ts) (env : Env) {d d' : Data}
    (hn : ∀ t ∈ ts, lower t ≠ j!"null") (hk : ∀ f, Mentions ts none f → KeptAt f d d') {v : Value}
    (hv : evaluateArithAny env s d = .ok v) : evaluateArithAny env s d' = .ok v :=
  evaluateArithAny_kept (any_kept h hn hk).1 (any_kept h hn hk).2 hv

/-- **C82**, more data, the way it is used: adding fields changes no answer. -/
theorem C82_added_fields {s : JStr} {ts : List JStr} (h : Cut s ts) (env : Env) (d extra : Data) {df : Option JStr}
    (hn : ∀ t ∈ ts, lower t ≠ j!"null") (hdn : ∀ f, df = some f → lower f ≠ j!"null") {b : Bool}
    (hb : evaluateAny env s d df = .ok b) : evaluateAny env s (d ++ extra) df = .ok b :=
  C82_more_data h env hn hdn
    (fun _ _ => ⟨fun _ _ _ hr => reaches_append hr extra, fun _ _ hv => hasEntry_append hv extra⟩) hb

theorem any_not_missing {s : JStr} {ts : List JStr} (h : Cut s ts) (df : Option JStr) :
    parseAny s df ≠ .error .dataNotFound := by
  intro he
  rcases parseAny_within (fun t ht => (cut_texts h ht).2) he with h | h | h | h | ⟨h, _⟩ <;> cases h

/-- **C82**, missing data: if the evaluation of any text fails because data were not found, the data have no value for
a name the text mentions. -/
theorem C82_missing {s : JStr} {ts : List JStr} (h : Cut s ts) {env : Env} {d : Data} {df : Option JStr}
    (he : evaluateAny env s d df = .error .dataNotFound) : ∃ f, Mentions ts df f ∧ Absent d f := by
  have h1 : ∀ {t : Token}, t ∈ lex s → TokSelf (VB (Mentions ts df) (Mentions ts df)) t := fun {t} ht => {
    field := fun _ => mentions_lexeme h df ht
    lit := fun v hv hb hn => mentions_value h df ht (.inl rfl) hv hb hn
    word := fun v hv hb hn => mentions_value h df ht (.inl rfl) hv hb hn
    lone := fun v hv hn => mentions_value h df ht (.inr rfl) hv (by decide) hn
    fn := fun _ _ => trivial
    op := fun _ _ => trivial }
  have h2 : TokSelf (VB (Mentions ts df) (Mentions ts df)) eofTok := {
    field := by intro h; cases h
    lit := fun v hv _ _ => end_value (.inl rfl) hv ts df
    word := fun v hv _ _ => end_value (.inl rfl) hv ts df
    lone := fun v hv _ => end_value (.inr rfl) hv ts df
    fn := fun _ _ => trivial
    op := fun _ _ => trivial }
  obtain ⟨f, hf, ha⟩ := evaluateAny_blame (G := Mentions ts df) (fun f hf => .inr (.inl hf)) h2 (fun t => h1)
    (any_not_missing h df) he
  exact ⟨f, hf, absent_of ha⟩

/-- **C82**, missing data, arithmetic evaluator: a field named in the text has no value. -/
theorem C82_missing_arith {s : JStr} {ts : List JStr} (h : Cut s ts) {env : Env} {d : Data}
    (he : evaluateArithAny env s d = .error .dataNotFound) : ∃ f ∈ ts, Classified f .field ∧ Absent d f := by
  let F : JStr → Prop := fun f => f ∈ ts ∧ Classified f .field
  have h1 : ∀ {t : Token}, t ∈ lex s → TokSelf (VB F (fun _ => True)) t := fun {t} ht => {
    field := fun hk => by have := cut_texts h ht; rw [hk] at this; exact this
    lit := fun _ _ _ _ => trivial
    word := fun _ _ _ _ => trivial
    lone := fun _ _ _ => trivial
    fn := fun _ _ => trivial
    op := fun _ _ => trivial }
  have h2 : TokSelf (VB F (fun _ => True)) eofTok := {
    field := by intro h; cases h
    lit := fun _ _ _ _ => trivial
    word := fun _ _ _ _ => trivial
    lone := fun _ _ _ => trivial
    fn := fun _ _ => trivial
    op := fun _ _ => trivial }
  obtain ⟨f, hf, ha⟩ := evaluateArithAny_blame h2 (fun _ => h1)
    (any_not_missing h none) he
  exact ⟨f, hf.1, hf.2, absent_of ha⟩

/-- **C82**, refusals: a text that is refused before any data are looked at is refused with all data, by both
evaluators. -/
theorem C82_refused {s : JStr} {df : Option JStr} {e : Exn} (he : parseAny s df = .error e) (env : Env) (d : Data) :
    evaluateAny env s d df = .error e ∧ (df = none → evaluateArithAny env s d = .error e) := by
  refine ⟨by rw [evaluateAny, he]; rfl, ?_⟩
  rintro rfl
  rw [evaluateArithAny, he]; rfl

/-! ### Malformed texts -/

/-- `(a > 5 AND b = 'x' garbage` lacks a parenthesis and ends in garbage; adding fields does not change its answer. -/
example (env : Env) (extra : Data) :
    parseExpression j!"(a > 5 AND b = 'x' garbage" none = .syntaxError ∧
    evaluateAny env j!"(a > 5 AND b = 'x' garbage" ([(j!"a", .int 7), (j!"b", .str j!"x")] ++ extra) none = .ok true :=
  ⟨by krfl, C82_added_fields (ts := [j!"(", j!"a", j!">", j!"5", j!"AND", j!"b", j!"=", j!"'x'", j!"garbage"])
    (cut_of (by krfl)) env _ extra (by decide) (by intro f h; cases h) (by
      rw [evaluateAny, show parseAny j!"(a > 5 AND b = 'x' garbage" none = .ok
        (.and_ (.cmp (.field (some ['a'])) (.unary .integer (.int 5)) .gt .integer)
          (.cmp (.field (some ['b'])) (.unary .string (.str ['x'])) .eq .string)) by krfl]
      rfl)⟩

/-- `a > > 5 ) (` has no clock in it. -/
example (env env' : Env) (d : Data) : evaluateAny env j!"a > > 5 ) (" d none = evaluateAny env' j!"a > > 5 ) (" d none :=
  (C82_environment (ts := [j!"a", j!">", j!">", j!"5", j!")", j!"("]) (cut_of (by krfl)) (fun h => absurd h (by decide))
    (fun h => absurd h (by decide)) d none).1

/-- `(a = 5` is answered, and without `a` it says so. -/
example (env : Env) : evaluateAny env j!"(a = 5" [] none = .error .dataNotFound := by
  rw [evaluateAny, show parseAny j!"(a = 5" none = .ok
    (.cmp (.field (some ['a'])) (.unary .integer (.int 5)) .eq .integer) by krfl]
  rfl

example : Cut j!"(a = 5" [j!"(", j!"a", j!"=", j!"5"] := cut_of (by krfl)

end BoolParser
