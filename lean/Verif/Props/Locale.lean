import Verif.Lemmas.LocaleTexts
import Verif.Lemmas.VerbatimNames
import Verif.Lemmas.LocaleSays
import Verif.Lemmas.Checker
/-!
# The default locale of the virtual machine (C87)

The library converts function names to capitals and operator symbols to lower case with the default locale. Here:
what that changes in Turkish and Azeri, where the capital of `i` is `İ`. `evaluate` and `evaluateArith` are the
library under any other default locale (`C87_common`).
-/

namespace BoolParser
open Spec

/-- **C87.** Under a default locale other than Turkish and Azeri the look-ups by name find the function and the operator
that was written. -/
theorem C87_common (env : Env) (s : JStr) (d : Data) (df : Option JStr) :
    evaluateIn .common env s d df = evaluate env s d df ∧ evaluateArithIn .common env s d = evaluateArith env s d :=
  sameIn (fun u hu hk => fine_common (tokens_table s u hu hk)) env d df

/-- **C87**, the locale does not matter to a text without `min`, `int`, `median`, `contains_all` and `contains_any` in
lower case: field names, texts, dates, `in`, `true`, … may contain an `i`. -/
theorem C87_capitals {s : JStr} {ts : List JStr} (hc : Cut s ts) (hf : ∀ t ∈ ts, t ∉ dottedFunctions)
    (hk : ∀ t ∈ ts, t ∉ dottedKeywords) (loc : Locale) (env : Env) (d : Data) (df : Option JStr) :
    evaluateIn loc env s d df = evaluate env s d df ∧ evaluateArithIn loc env s d = evaluateArith env s d := by
  have hl := (C49_cut s ts).1 hc
  have hm : ∀ u ∈ lex s, u.text ∈ ts := fun u hu => hl ▸ List.mem_map_of_mem hu
  cases loc with
  | common => exact C87_common env s d df
  | turkish =>
    exact sameIn (fun u hu hn => fine_turkish (tokens_table s u hu hn) (hf _ (hm u hu)) (hk _ (hm u hu))) env d df

example (env : Env) (d : Data) : evaluateIn .turkish env j!"city in ('izmir', 'siirt') AND MIN(visits, 3) > 1" d none =
    evaluate env j!"city in ('izmir', 'siirt') AND MIN(visits, 3) > 1" d none :=
  (C87_capitals (ts := [j!"city", j!"in", j!"(", j!"'izmir'", j!",", j!"'siirt'", j!")", j!"AND", j!"MIN", j!"(", j!"visits",
    j!",", j!"3", j!")", j!">", j!"1"]) ((C49_cut _ _).2 (by krfl)) (by decide +kernel) (by decide +kernel) .turkish env d none).1

/-- **C87**, functions: a text with `min`, `int` or `median` in lower case fails under a Turkish default locale, whatever
the data. -/
theorem C87_functions {s : JStr} {ts : List JStr} (hc : Cut s ts) {t : JStr} (ht : t ∈ ts) (hd : t ∈ dottedFunctions)
    (env : Env) (d : Data) (df : Option JStr) :
    (∀ b, evaluateIn .turkish env s d df ≠ .success b) ∧ (∀ v, evaluateArithIn .turkish env s d ≠ .success v) := by
  have hl := (C49_cut s ts).1 hc
  rw [← hl, List.mem_map] at ht
  obtain ⟨u, hu, rfl⟩ := ht
  have hn : ∀ df n, parseIn .turkish s df ≠ .success n := by
    intro df n h
    have hcl := C49_kinds s u hu
    have hnames : ∀ w ∈ dottedFunctions, ∃ k, (w, k) ∈ tokenTable := by
      intro w hw
      simp only [dottedFunctions, List.mem_cons, List.not_mem_nil, or_false] at hw
      rcases hw with rfl | rfl | rfl
      · exact ⟨.fn .min, by decide +kernel⟩
      · exact ⟨.fn .int, by decide +kernel⟩
      · exact ⟨.fn .median, by decide +kernel⟩
    obtain ⟨k, hk⟩ := hnames _ hd
    have hkind : u.kind = k := ((C49_one_kind _).1 (.inl ⟨k, hk⟩)).unique hcl (.table hk)
    obtain ⟨h1, h2⟩ := lost_function hk hd
    exact h2 (hkind ▸ parseIn_found h u hu (hkind ▸ h1))
  constructor
  · intro b h
    unfold evaluateIn at h
    cases hp : parseIn .turkish s df with
    | success n => exact hn df n hp
    | failure e => rw [hp] at h; cases h
    | syntaxError => rw [hp] at h; cases h
  · intro v h
    unfold evaluateArithIn at h
    cases hp : parseIn .turkish s none with
    | success n => exact hn none n hp
    | failure e => rw [hp] at h; cases h
    | syntaxError => rw [hp] at h; cases h

example (env : Env) (d : Data) (b : Bool) : evaluateIn .turkish env j!"min(a, 3) > 1" d none ≠ .success b :=
  (C87_functions (ts := [j!"min", j!"(", j!"a", j!",", j!"3", j!")", j!">", j!"1"]) ((C49_cut _ _).2 (by krfl)) (t := j!"min")
    (by decide +kernel) (by decide +kernel) env d none).1 b

/-- A result elsewhere, a failure in Turkey. -/
example (env : Env) : evaluate env j!"min(5, 3) > 1" [] none = .success true ∧
    evaluateIn .turkish env j!"min(5, 3) > 1" [] none = .failure .invalidExpression ∧
    evaluateIn .turkish env j!"MIN(5, 3) > 1" [] none = .success true := ⟨by krfl, by krfl, by krfl⟩

/-- **C87**, the default locale can make an evaluation fail, but cannot change a result. -/
theorem C87_sound {loc : Locale} {env : Env} {s : JStr} {d : Data} {df : Option JStr} :
    (∀ b, evaluateIn loc env s d df = .success b → evaluate env s d df = .success b) ∧
    (∀ v, evaluateArithIn loc env s d = .success v → evaluateArith env s d = .success v) := by
  constructor
  · intro b h
    unfold evaluateIn at h
    cases hp : parseIn loc s df with
    | success n =>
      rw [hp] at h
      have h1 := parseIn_sound hp
      unfold evaluate
      rw [h1]
      simp only [Outcome.andThen] at h ⊢
      cases hb : evalBoolN env d n with
      | error e => rw [hb] at h; cases h
      | ok b' => rw [hb] at h; rw [evalBoolN_ok n hb]; exact h
    | failure e => rw [hp] at h; cases h
    | syntaxError => rw [hp] at h; cases h
  · intro v h
    unfold evaluateArithIn at h
    cases hp : parseIn loc s none with
    | success n =>
      rw [hp] at h
      unfold evaluateArith
      rw [parseIn_sound hp]
      exact h
    | failure e => rw [hp] at h; cases h
    | syntaxError => rw [hp] at h; cases h

example (env : Env) : evaluate env j!"MAX(5, 3) > 1" [] none = .success true :=
  (C87_sound (loc := .turkish)).1 true (by krfl)

example (env : Env) : evaluateArith env j!"INT(7) + 1" [] = .success (.int 8) :=
  (C87_sound (loc := .turkish) (df := none)).2 (.int 8) (by krfl)

/-! ## Texts that are not of the grammar -/

/-- **C87**, any text: the same under every default locale other than Turkish and Azeri. -/
theorem C87_common_any (env : Env) (s : JStr) (d : Data) (df : Option JStr) :
    evaluateAnyIn .common env s d df = evaluateAny env s d df ∧
      evaluateArithAnyIn .common env s d = evaluateArithAny env s d :=
  sameAnyIn (fun u hu hk => fine_common (tokens_table s u hu hk)) env d df

/-- **C87**, any text without the five words in lower case: the default locale does not matter. -/
theorem C87_capitals_any {s : JStr} {ts : List JStr} (hc : Cut s ts) (hf : ∀ t ∈ ts, t ∉ dottedFunctions)
    (hk : ∀ t ∈ ts, t ∉ dottedKeywords) (loc : Locale) (env : Env) (d : Data) (df : Option JStr) :
    evaluateAnyIn loc env s d df = evaluateAny env s d df ∧ evaluateArithAnyIn loc env s d = evaluateArithAny env s d := by
  have hl := (C49_cut s ts).1 hc
  have hm : ∀ u ∈ lex s, u.text ∈ ts := fun u hu => hl ▸ List.mem_map_of_mem hu
  cases loc with
  | common => exact C87_common_any env s d df
  | turkish =>
    exact sameAnyIn (fun u hu hn => fine_turkish (tokens_table s u hu hn) (hf _ (hm u hu)) (hk _ (hm u hu))) env d df

/-- **C87**, any text: no default locale changes a result. -/
theorem C87_sound_any {loc : Locale} {env : Env} {s : JStr} {d : Data} {df : Option JStr} :
    (∀ b, evaluateAnyIn loc env s d df = .ok b → evaluateAny env s d df = .ok b) ∧
    (∀ v, evaluateArithAnyIn loc env s d = .ok v → evaluateArithAny env s d = .ok v) := by
  constructor
  · intro b h
    unfold evaluateAnyIn at h
    split at h
    · rename_i n hn
      unfold evaluateAny
      rw [parseVerbatim_sound hn, ok_bind]
      exact evalBoolN_ok n h
    · cases h
  · intro v h
    unfold evaluateArithAnyIn at h
    split at h
    · rename_i n hn
      unfold evaluateArithAny
      rw [parseVerbatim_sound hn, ok_bind]
      exact h
    · cases h

/-- **C87**, the two together: on a text of the grammar the library on any text does what the theorems about texts of the
grammar say. -/
theorem C87_grammar {s : JStr} {df : Option JStr} (h : parseExpression s df ≠ .syntaxError) (loc : Locale) (env : Env) (d : Data) :
    evaluateIn loc env s d df = .ofResult (evaluateAnyIn loc env s d df) ∧
    evaluateArithIn loc env s d = .ofResult (evaluateArithAnyIn loc env s d) := by
  rw [parseExpression] at h
  cases e : parseTokens (lex s) with
  | none => rw [e] at h; exact absurd rfl h
  | some t => exact evaluateAny_in e loc env d df

example (env : Env) (d : Data) (df : Option JStr) (b : Bool) : evaluateAnyIn .turkish env j!"min(a, 3) > 1" d df ≠ .ok b := by
  intro h
  have hp : parseExpression j!"min(a, 3) > 1" df ≠ .syntaxError := by
    have : (parseTokens (lex j!"min(a, 3) > 1")).isSome = true := by krfl
    rw [parseExpression]
    cases e : parseTokens (lex j!"min(a, 3) > 1") with
    | none => rw [e] at this; cases this
    | some t =>
      simp only
      generalize listen df t = r
      cases r <;> simp [Outcome.ofResult]
  have h1 := (C87_grammar hp .turkish env d).1
  rw [h] at h1
  exact (C87_functions (ts := [j!"min", j!"(", j!"a", j!",", j!"3", j!")", j!">", j!"1"]) ((C49_cut _ _).2 (by krfl)) (t := j!"min")
    (by decide +kernel) (by decide +kernel) env d df).1 b h1

/-- A closing parenthesis is missing. -/
example (env : Env) (d : Data) : evaluateAnyIn .turkish env j!"(city in ('izmir', 'siirt')" d none =
    evaluateAny env j!"(city in ('izmir', 'siirt')" d none :=
  (C87_capitals_any (ts := [j!"(", j!"city", j!"in", j!"(", j!"'izmir'", j!",", j!"'siirt'", j!")"]) ((C49_cut _ _).2 (by krfl))
    (by decide +kernel) (by decide +kernel) .turkish env d none).1

example (env : Env) : evaluateAny env j!"(MIN(5, 3) > 1" [] none = .ok true :=
  (C87_sound_any (loc := .turkish)).1 true (by krfl)

/-- In lower case the name is not found. -/
example (env : Env) : evaluateAnyIn .turkish env j!"(min(5, 3) > 1" [] none = .error .invalidExpression ∧
    evaluateAny env j!"(min(5, 3) > 1" [] none = .ok true := ⟨by krfl, by krfl⟩

/-- But a text that is not of the grammar may have a result nonetheless: what is left over at its end is not looked at. -/
example (env : Env) : evaluateAnyIn .turkish env j!"5 > 1 min" [] none = .ok true := by krfl

/-- **C87**, list tests: a test with `contains_all` or `contains_any` in lower case that has a result elsewhere fails
under a Turkish default locale: EQUALS is put in its place and refuses a list. -/
theorem C87_contains {s : JStr} {f : JStr} {o : ArrOp} {items : List Arith} {w : JStr} {ts : List JStr}
    (h : Writes s (.contains f o items)) (hc : Cut s (f :: w :: ts)) (hw : w ∈ dottedKeywords)
    (hm : ∀ t ∈ ts, t ∉ dottedFunctions) {env : Env} {d : Data} {df : Option JStr} {b : Bool}
    (hb : evaluate env s d df = .success b) : evaluateIn .turkish env s d df = .failure .invalidContainerType := by
  obtain ⟨ns, h1, h2⟩ := contains_lost h hc hw hm df
  unfold evaluate at hb
  rw [h.node df] at hb
  simp only [Outcome.andThen, Cond.node, evalBool] at hb
  unfold evaluateIn
  rw [h1]
  simp only [Outcome.andThen, evalBoolN]
  rw [evalItemsN_base ns (by rw [h2]; exact nodes_base items), h2]
  cases e1 : requireField (some f) d with
  | error e => rw [e1] at hb; cases hb
  | ok v =>
    rw [e1] at hb
    cases e2 : evalItems env d (Arith.nodes items) with
    | error e => rw [e2] at hb; cases hb
    | ok vs =>
      rw [e2] at hb
      simp only [ok_bind] at hb ⊢
      cases e3 : heterogeneous (flattenItems vs) with
      | true => rw [e3] at hb; cases hb
      | false => simp only [Bool.false_eq_true, if_false]; rfl

example (env : Env) : evaluateIn .turkish env j!"tags contains_any ('a', 'b')" [(j!"tags", .list [.str ['a']])] none =
    .failure .invalidContainerType :=
  C87_contains (f := j!"tags") (o := .containsAny) (items := [.lit (.str '\'' ['a']), .lit (.str '\'' ['b'])])
    (w := j!"contains_any") (ts := [j!"(", j!"'a'", j!",", j!"'b'", j!")"]) (writes_of (by krfl)) ((C49_cut _ _).2 (by krfl))
    (by decide +kernel) (by decide +kernel) (b := true) (by krfl)

/-- Inside a larger expression the test may never be reached. -/
example (env : Env) : evaluateIn .turkish env j!"a = 1 OR tags contains_any ('a')" [(['a'], .int 1)] none = .success true := by
  krfl

/-- **C87**, what is said of a call whose name is not found: its arguments being fields and literals, the message quotes the
tokens of the call. -/
theorem C87_says {s : JStr} {f : FuncType} {args : List Arith} {w : JStr} {ts : List JStr} (h : WritesArith s (.call f args))
    (ha : ∀ a ∈ args, a.isAtom = true) (hc : Cut s (w :: ts)) (hw : w ∈ dottedFunctions) (df : Option JStr) :
    parseVerbatim .turkish s df =
      .error ⟨.invalidExpression, some (j!"Error parsing expression for the string " ++ (w :: ts).flatten)⟩ :=
  call_says h ha hc hw df

example (df : Option JStr) : parseVerbatim .turkish j!" min ( 3 , a )" df =
    .error ⟨.invalidExpression, some j!"Error parsing expression for the string min(3,a)"⟩ :=
  C87_says (f := .min) (args := [.lit (.int ['3']), .field ['a']]) (w := j!"min") (ts := [j!"(", j!"3", j!",", j!"a", j!")"])
    (writesArith_of (by krfl)) (by decide) ((C49_cut _ _).2 (by krfl)) (by decide +kernel) df

/-- **C87.** Any text, any default locale: the message of an InvalidExpressionException of the parser quotes a piece of the text,
as under the locales of C102. -/
theorem C87_quotes {s : JStr} {ts : List JStr} (h : Cut s ts) {loc : Locale} {df : Option JStr} {m : Option JStr}
    (he : parseVerbatim loc s df = .error ⟨.invalidExpression, m⟩) :
    ∃ o x, m = some (o ++ x) ∧ o ∈ reproaches ∧ Quotes ts x := by
  rcases parseVerbatim_quotes loc s df _ he with ⟨_, m', y, h3, h4, h5⟩ | ⟨h3, _⟩
  · rw [show List.map Token.text (lex s) = ts from cut_unique h] at h4
    rw [show m = some m' from h3]
    rcases h5 with rfl | rfl | rfl | rfl
    · exact ⟨_, y, rfl, .head _, h4⟩
    · exact ⟨_, y, rfl, .tail _ (.head _), h4⟩
    · exact ⟨_, y, rfl, .tail _ (.tail _ (.head _)), h4⟩
    · exact ⟨_, y, rfl, .tail _ (.tail _ (.tail _ (.head _))), h4⟩
  · exact absurd (show OfLibrary .invalidExpression by decide) h3

example : ∃ o x, parseVerbatim .turkish j!"a = 1 AND min(b" none = .error ⟨.invalidExpression, some (o ++ x)⟩ ∧ o ∈ reproaches ∧
    Quotes [j!"a", j!"=", j!"1", j!"AND", j!"min", j!"(", j!"b"] x := by
  have ht : parseVerbatim .turkish j!"a = 1 AND min(b" none =
    .error ⟨.invalidExpression, some j!"Error parsing expression for the string min(b"⟩ := by krfl
  obtain ⟨o, x, e, h⟩ := C87_quotes (cut_of (by krfl)) ht
  exact ⟨o, x, e ▸ ht, h⟩

/-- **C87**, the symbols of comparisons and calculations are found under every default locale. -/
theorem C87_symbols (loc : Locale) : (∀ t o, (t, TK.cmp o) ∈ tokenTable → operatorIn loc t = o.slot) ∧
    (∀ t o, (t, TK.arith o) ∈ tokenTable → operatorIn loc t = o.slot) := by
  have key : ∀ loc, tokenTable.all (fun p => match p.2 with
      | .cmp o => operatorIn loc p.1 == o.slot
      | .arith o => operatorIn loc p.1 == o.slot
      | _ => true) = true := by
    intro loc; cases loc <;> krfl
  constructor
  · intro t o h
    simpa using List.all_eq_true.1 (key loc) _ h
  · intro t o h
    simpa using List.all_eq_true.1 (key loc) _ h

example : operatorIn .turkish j!">=" = .greaterThanEqual := (C87_symbols .turkish).1 j!">=" .ge (by decide +kernel)

/-- **C87**, the words for truth values are recognised under every default locale. -/
theorem C87_truth (loc : Locale) (s : JStr) :
    (loc.lower s = j!"true" ↔ lower s = j!"true") ∧ (loc.lower s = j!"false" ↔ lower s = j!"false") := by
  have key : ∀ (w : JStr), 'i' ∉ w → 'ı' ∉ w → 'İ' ∉ w → ∀ s : JStr, loc.lower s = w ↔ lower s = w := by
    intro w
    induction w with
    | nil => intro _ _ _ s; simp [Locale.lower, lower]
    | cons c w ih =>
      intro h1 h2 h3 s
      cases s with
      | nil => simp [Locale.lower, lower]
      | cons x s =>
        simp only [List.mem_cons, not_or] at h1 h2 h3
        have := ih h1.2 h2.2 h3.2 s
        simp only [Locale.lower, lower, List.map_cons, List.cons.injEq] at this ⊢
        rw [this]
        refine and_congr ?_ Iff.rfl
        cases loc with
        | common => exact Iff.rfl
        | turkish =>
          simp only [Locale.lowerChar]
          split
          · rename_i e; subst e
            exact ⟨fun h => absurd h h2.1, fun h => absurd ((by krfl : BoolParser.lowerChar 'I' = 'i').symm.trans h) h1.1⟩
          · split
            · rename_i e; subst e
              exact ⟨fun h => absurd h h1.1, fun h => absurd ((by krfl : BoolParser.lowerChar 'İ' = 'İ').symm.trans h) h3.1⟩
            · exact Iff.rfl
  exact ⟨key _ (by decide) (by decide) (by decide) s, key _ (by decide) (by decide) (by decide) s⟩

example : Locale.turkish.lower j!"FALSE" = j!"false" := (C87_truth .turkish _).2.2 (by krfl)

end BoolParser
