import Verif.Props.Pipeline
import Verif.Props.Comparison
import Verif.Props.Arithmetic
import Verif.Props.Functions
import Verif.Lemmas.Trailing
import Verif.Lemmas.Relit
import Verif.Lemmas.HugeLiteral
/-!
# Tokens and literals

C38 white space, C39 quoted strings, C40 whole-number literals, C49 the tokeniser.

How a text is cut into tokens is described by `Spec.Cut` and `Spec.Classified`
(`Verif/Spec/Tokens.lean`), without mentioning the lexer's rules.
-/

namespace BoolParser
open Spec

theorem respelled_refl (ls : List JStr) : Respelled ls ls := by
  induction ls with
  | nil => exact .nil
  | cons l ls ih => exact .cons (.inl rfl) ih

/-! ## C49: the tokeniser -/

/-- **C49.** Every text is cut into exactly one token sequence, the one of the specification: skip white
space, take the longest lexeme, drop what is not recognised. -/
theorem C49_cut (s : JStr) (ts : List JStr) : Cut s ts ↔ (lex s).map Token.text = ts :=
  ⟨cut_unique, fun h => h ▸ cut_lex _ s (Nat.le_refl _)⟩

/-- **C49**, kinds: every token is a lexeme of its kind. -/
theorem C49_kinds (s : JStr) : ∀ t ∈ lex s, Classified t.text t.kind :=
  fun t ht => valid_classified (lex_valid _ s (Nat.le_refl _) t ht)

/-- **C49**, kinds: a lexeme has exactly one kind. -/
theorem C49_one_kind (t : JStr) : IsLexeme t ↔ ∃! k, Classified t k := by
  constructor
  · intro h
    obtain ⟨k, hk⟩ := lexeme_valid h
    exact ⟨k, valid_classified hk, fun k' hk' => valid_unique (classified_valid hk') hk⟩
  · rintro ⟨k, hk, _⟩; exact classified_lexeme hk

/-- `s` is made up of the texts `ts`, in order, and something before, between and after them. -/
inductive Interleaved : List JStr → JStr → Prop
  | nil {gap : JStr} : Interleaved [] gap
  | cons {gap t r : JStr} {ts : List JStr} : Interleaved ts r → Interleaved (t :: ts) (gap ++ t ++ r)

theorem Interleaved.before (x : JStr) {ts : List JStr} {s : JStr} (h : Interleaved ts s) : Interleaved ts (x ++ s) := by
  cases h with
  | nil => exact .nil
  | @cons gap t r ts h =>
    have : x ++ (gap ++ t ++ r) = (x ++ gap) ++ t ++ r := by simp
    rw [this]; exact .cons h

/-- **C49**, completeness: the tokens appear in the text in order and without overlap, and none is empty. -/
theorem C49_complete (s : JStr) :
    Interleaved ((lex s).map Token.text) s ∧ ∀ t ∈ lex s, t.text ≠ [] := by
  constructor
  · have h := cut_lex _ s (Nat.le_refl _)
    generalize (lex s).map Token.text = ts at h
    induction h with
    | done => exact .nil
    | blank _ _ ih => exact ih.before [_]
    | @token t r ts _ _ _ ih => exact .cons (gap := []) ih
    | @dropped x r ts _ _ _ _ ih => exact ih.before x
  · intro t ht
    obtain ⟨c, cs, e, _⟩ := lexeme_head (classified_lexeme (C49_kinds s t ht))
    rw [e]; simp

/-- Four tokens; `#` is dropped. -/
example : Cut j!"age>=18# AND" [j!"age", j!">=", j!"18", j!"AND"] := by rw [C49_cut]; krfl

/-- The longest match: `IN` is a keyword, `INT` a function, `INTx` a name. -/
example : lex j!"IN INT INTx" = [⟨.kIn, j!"IN"⟩, ⟨.fn .int, j!"INT"⟩, ⟨.field, j!"INTx"⟩] := by krfl

/-! ## C38: white space -/

theorem lexemes_tokens {ls : List JStr} (h : ∀ l ∈ ls, IsLexeme l) :
    ∃ ts : List Token, ts.map Token.text = ls ∧ ∀ t ∈ ts, ValidTok t := by
  induction ls with
  | nil => exact ⟨[], rfl, by simp⟩
  | cons l ls ih =>
    obtain ⟨k, hk⟩ := lexeme_valid (h l (by simp))
    obtain ⟨ts, e, hv⟩ := ih (fun l hl => h l (by simp [hl]))
    refine ⟨⟨k, l⟩ :: ts, by simp [e], ?_⟩
    intro t ht
    rcases List.mem_cons.mp ht with rfl | ht
    · exact hk
    · exact hv t ht

/-- **C38.** Two texts that write the same lexemes, each with its own white space before, between and
after them, have the same tokens: those lexemes. -/
theorem C38_tokens {ls : List JStr} (hl : ∀ l ∈ ls, IsLexeme l) {s s' : JStr} (h : Written ls s)
    (h' : Written ls s') : lex s = lex s' ∧ (lex s).map Token.text = ls := by
  obtain ⟨ts, rfl, hv⟩ := lexemes_tokens hl
  rw [lex_written hv h, lex_written hv h']
  exact ⟨rfl, rfl⟩

/-- The same tokens give the same parse and the same results. -/
theorem same_tokens {s s' : JStr} (h : lex s = lex s') (env : Env) (d : Data) (df : Option JStr) :
    parseExpression s df = parseExpression s' df ∧ evaluate env s d df = evaluate env s' d df ∧
    evaluateArith env s d = evaluateArith env s' d := by
  have hp : ∀ df, parseExpression s df = parseExpression s' df := by
    intro df; rw [parseExpression, parseExpression, h]
  exact ⟨hp df, by rw [evaluate, evaluate, hp], by rw [evaluateArith, evaluateArith, hp]⟩

/-- **C38**, results: the white space between lexemes changes neither parse nor result. -/
theorem C38_results {ls : List JStr} (hl : ∀ l ∈ ls, IsLexeme l) {s s' : JStr} (h : Written ls s)
    (h' : Written ls s') (env : Env) (d : Data) (df : Option JStr) :
    parseExpression s df = parseExpression s' df ∧ evaluate env s d df = evaluate env s' d df ∧
    evaluateArith env s d = evaluateArith env s' d :=
  same_tokens (C38_tokens hl h h').1 env d df

/-- **C38** for arbitrary texts, also with unrecognised characters: two texts cut into the same lexemes give
the same parse and the same results. -/
theorem C38_same_cut {ts : List JStr} {s s' : JStr} (h : Cut s ts) (h' : Cut s' ts) (env : Env) (d : Data)
    (df : Option JStr) :
    parseExpression s df = parseExpression s' df ∧ evaluate env s d df = evaluate env s' d df ∧
    evaluateArith env s d = evaluateArith env s' d :=
  same_tokens (lex_inj ((cut_unique h).trans (cut_unique h').symm)) env d df

/-- **C38** at the ends: white space before and after any text whatsoever changes nothing. -/
theorem C38_ends {v w : JStr} (hv : v.all isBlank = true) (hw : w.all isBlank = true) (s : JStr) (env : Env)
    (d : Data) (df : Option JStr) :
    lex (v ++ s ++ w) = lex s ∧
    parseExpression (v ++ s ++ w) df = parseExpression s df ∧
    evaluate env (v ++ s ++ w) d df = evaluate env s d df ∧
    evaluateArith env (v ++ s ++ w) d = evaluateArith env s d := by
  have h := cut_lex _ s (Nat.le_refl _)
  have e : lex (v ++ s ++ w) = lex s := lex_inj (cut_unique (cut_trailing hw (cut_leading hv h)))
  exact ⟨e, same_tokens e env d df⟩

/-- `age>=18` and the same with blanks, tabs and line breaks. -/
example (env : Env) (d : Data) : evaluate env j!"age>=18" d none = evaluate env j!"\tage  >=\n18 " d none :=
  (C38_results (ls := [j!"age", j!">=", j!"18"])
    (by
      intro l hl
      simp only [List.mem_cons, List.not_mem_nil, or_false] at hl
      rcases hl with rfl | rfl | rfl
      · exact .inr (.inr (.inr (.inr (by decide))))
      · exact .inl ⟨.cmp .ge, by decide⟩
      · exact .inr (.inr (.inr (.inr (by decide)))))
    (.cons (w := []) (r := j!">=18") rfl (.cons (w := []) (r := j!"18") rfl
      (.cons (w := []) (r := []) rfl (.nil rfl) rfl) rfl) rfl)
    (.cons (w := ['\t']) (r := j!"  >=\n18 ") rfl (.cons (w := j!"  ") (r := j!"\n18 ") rfl
      (.cons (w := ['\n']) (r := [' ']) rfl (.nil rfl) rfl) rfl) rfl) env d none).2.1

/-- White space is significant where tokens would merge: `2023 -03-05` is an arithmetic expression,
`2023-03-05` a date. -/
theorem C38_merging : lex j!"2023 -03-05" ≠ lex j!"2023-03-05" := by
  have h1 : (lex j!"2023 -03-05").length = 5 := by krfl
  have h2 : (lex j!"2023-03-05").length = 1 := by krfl
  intro h; rw [h, h2] at h1; cases h1

/-! ## C39: quoted strings -/

/-- **C39**, alone: a string literal evaluates to exactly the characters between the quotes. -/
theorem C39_alone {q : Char} {x : JStr} (hq : q = '\'' ∨ q = '"') (hx : q ∉ x) {s : JStr}
    (hs : Written [q :: (x ++ [q])] s) (env : Env) (d : Data) : evaluateArith env s d = .success (.str x) := by
  have hv : (Lit.str q x).Valid := ⟨hq, hx⟩
  have e : lex s = [(Lit.str q x).tok] :=
    lex_written (ts := [(Lit.str q x).tok]) (by intro t ht; rw [List.mem_singleton.mp ht]; exact Lit.tok_valid hv) hs
  have hc := (Lit.str q x).convert hv
  have hp : parseExpression s none = .success (.unary .string (.str x)) := by
    rw [parseExpression, e]
    have : parseTokens [(Lit.str q x).tok] = some (.types (Lit.str q x).tok false) := by rfl
    rw [this]
    simp only [listen, walk, LState.init, ok_bind, exitParse]
    have hc' : convertValue (Lit.str q x).tok.text .string = .ok (.str x) := hc
    simp only [hc', ok_bind]
    rfl
  rw [evaluateArith, hp]; rfl

/-- **C39**, length: `LEN` of a string literal counts the characters between the quotes. -/
theorem C39_len {q : Char} {x : JStr} (hq : q = '\'' ∨ q = '"') (hx : q ∉ x) {s : JStr}
    (hs : Written [j!"LEN", j!"(", q :: (x ++ [q]), j!")"] s) (env : Env) (d : Data) :
    evaluateArith env s d = .success (.int (utf16 x).length) := by
  have h : WritesArith s (.call .len [.lit (.str q x)]) :=
    ⟨⟨by simp, ⟨hq, hx⟩, trivial⟩, ⟨trivial, trivial⟩, rfl, rfl, ⟨_, respelled_refl _, hs⟩⟩
  exact C31_text h ⟨[.str x], rfl, rfl⟩

/-- **C39**, comparison: a text field equals a string literal exactly if it has the characters between the
quotes. Texts that read as dates are compared as dates, so they are excepted here (see C06). -/
theorem C39_equal {q : Char} {x : JStr} (hq : q = '\'' ∨ q = '"') (hx : q ∉ x) {f : JStr} (hf : IsName f)
    (hnull : lower f ≠ j!"null") {s : JStr}
    (hs : Written [f, j!"=", q :: (x ++ [q])] s) (env : Env) {d : Data} {df : Option JStr} (hdf : DefaultOk df)
    {u : JStr} {ks : List JStr} (hn : Names f ks) (hd : Reaches d ks (.str u)) (hp : Ordinary u ∨ Ordinary x) :
    evaluate env s d df = .success (decide (u = x)) := by
  have h : Writes s (.cmp .eq (.field f) (.lit (.str q x))) :=
    ⟨⟨hf, ⟨hq, hx⟩, fun _ => ⟨by simpa [Cond.isNullWord] using hnull, rfl⟩⟩, ⟨trivial, trivial, Nat.le_refl _, Nat.le_add_left 13 _⟩, rfl, ⟨_, respelled_refl _, hs⟩⟩
  exact C06_equal h hdf (by rw [Arith.value]; exact fieldValue_reaches hn hd) (by rfl) hp

/-- Forget which quotes a string literal is written in. -/
def anyQuote : Lit → Lit
  | .str _ s => .str '"' s
  | l => l

/-- **C39**, style: single or double quotes make no difference, in any condition. -/
theorem C39_style {c c' : Cond} {s s' : JStr} (h : Writes s c) (h' : Writes s' c')
    (he : c.mapLit anyQuote = c'.mapLit anyQuote) (env : Env) (d : Data) {df : Option JStr} (hdf : DefaultOk df) :
    evaluate env s d df = evaluate env s' d df := by
  have hv : ∀ l, (anyQuote l).value = l.value := by intro l; cases l <;> rfl
  rw [h.eval env d hdf, h'.eval env d hdf, ← Cond.mapLit_meaning hv, he, Cond.mapLit_meaning hv]

/-- **C39**, style, in any arithmetic expression. -/
theorem C39_style_arith {e e' : Arith} {s s' : JStr} (h : WritesArith s e) (h' : WritesArith s' e')
    (he : e.mapLit anyQuote = e'.mapLit anyQuote) (env : Env) (d : Data) :
    evaluateArith env s d = evaluateArith env s' d := by
  have hv : ∀ l, (anyQuote l).value = l.value := by intro l; cases l <;> rfl
  rw [h.eval env d, h'.eval env d, ← Arith.mapLit_value hv, he, Arith.mapLit_value hv]

example (env : Env) (d : Data) : evaluateArith env j!"'a AND (b) = \"c\", 5'" d =
    .success (.str j!"a AND (b) = \"c\", 5") :=
  C39_alone (q := '\'') (x := j!"a AND (b) = \"c\", 5") (.inl rfl) (by decide)
    (.cons (w := []) (r := []) rfl (.nil rfl) rfl) env d

example (env : Env) : evaluate env j!"a = 'x AND (y)'" [(['a'], .str j!"x AND (Y)")] none = .success false :=
  C39_equal (q := '\'') (x := j!"x AND (y)") (.inl rfl) (by decide) (f := ['a']) (by decide) (by decide)
    (.cons (w := []) (r := j!" = 'x AND (y)'") rfl (.cons (w := [' ']) (r := j!" 'x AND (y)'") rfl
      (.cons (w := [' ']) (r := []) rfl (.nil rfl) rfl) rfl) rfl) env noDefault (u := j!"x AND (Y)") (ks := [['a']])
    ⟨⟨by simp, by decide, by decide⟩, 0, by rfl⟩ (.leaf ⟨[], [], rfl, by simp⟩ (by simp))
    (.inr (ordinary_plain (not_dateLike_dots (by decide))))

example (env : Env) (d : Data) :
    evaluate env j!"name = 'x y' AND b IN ('u', \"v\")" d none =
    evaluate env j!"name = \"x y\" AND b IN (\"u\", 'v')" d none :=
  C39_style
    (c := .conn true (.cmp .eq (.field j!"name") (.lit (.str '\'' j!"x y")))
      (.isIn ['b'] false [.lit (.str '\'' ['u']), .lit (.str '"' ['v'])]))
    (c' := .conn true (.cmp .eq (.field j!"name") (.lit (.str '"' j!"x y")))
      (.isIn ['b'] false [.lit (.str '"' ['u']), .lit (.str '\'' ['v'])]))
    (writes_of (by krfl)) (writes_of (by krfl)) rfl env d noDefault

/-! ## C40: whole-number literals -/

/-- **C40**, value and type: `n - 0` is the `Integer` n up to 2147483647 and the `Long` n up to
9223372036854775807, whatever digits write it. -/
theorem C40_value {ds : JStr} (hd : IsDigits ds) {s : JStr} (hs : Written [ds, j!"-", j!"0"] s) (env : Env)
    (d : Data) :
    (digitsValue ds ≤ 2147483647 → evaluateArith env s d = .success (.int (digitsValue ds))) ∧
    (2147483647 < digitsValue ds → digitsValue ds ≤ 9223372036854775807 →
      evaluateArith env s d = .success (.long (digitsValue ds))) := by
  have key : digitsValue ds ≤ 9223372036854775807 → WritesArith s (.op .sub (.lit (.int ds)) (.lit (.int ['0']))) :=
    fun hb => ⟨⟨⟨hd, hb⟩, by decide⟩, ⟨trivial, trivial, Nat.le_add_left 7 _, Nat.le_add_left 8 _⟩, rfl, rfl, ⟨_, respelled_refl _, hs⟩⟩
  have h0 : (Arith.lit (.int ['0'])).value env d = .ok (.int 0) := rfl
  constructor
  · intro hb
    have h1 : (Arith.lit (.int ds)).value env d = .ok (.int (digitsValue ds)) := by
      rw [Arith.value, Lit.value, if_pos hb]
    have := ((C19_sub_partial (key (by omega)) h1 h0 (.int (by unfold InInt32; omega)) (.int (by decide))).2
      ⟨rfl, rfl⟩).1 (by unfold InInt32; omega)
    rw [this, sub_zero]
  · intro hlo hb
    have h1 : (Arith.lit (.int ds)).value env d = .ok (.long (digitsValue ds)) := by
      rw [Arith.value, Lit.value, if_neg (by omega)]
    have := ((C19_sub_partial (key hb) h1 h0 (.long (by unfold InInt64; omega)) (.int (by decide))).1
      (.inl rfl)).1 (by unfold InInt64; omega)
    rw [this, sub_zero]

/-- **C40**, comparison: a number field compared with a whole-number literal is compared with its value. -/
theorem C40_compare {ds : JStr} (hd : IsDigits ds) (hb : digitsValue ds ≤ 9223372036854775807) {o : CmpOp}
    {f : JStr} (hf : IsName f) (hnull : lower f ≠ j!"null") {s : JStr}
    (hs : Written [f, cmpText o, ds] s) (env : Env) {d : Data} {df : Option JStr} (hdf : DefaultOk df) {a : Value}
    {x : ℚ} (ha : Num a x) {ks : List JStr} (hn : Names f ks) (hv : Reaches d ks a) :
    evaluate env s d df = .success (decide (Rel o x (digitsValue ds))) := by
  have h : Writes s (.cmp o (.field f) (.lit (.int ds))) :=
    ⟨⟨hf, ⟨hd, hb⟩, fun _ => ⟨by simpa [Cond.isNullWord] using hnull, rfl⟩⟩, ⟨trivial, trivial, Nat.le_refl _, Nat.le_add_left 13 _⟩, by cases o <;> rfl, ⟨_, respelled_refl _, hs⟩⟩
  have h2 : (Arith.lit (.int ds)).value env d = .ok (Lit.int ds).value := rfl
  have h3 : Num (Lit.int ds).value (digitsValue ds) := by
    rw [Lit.value]
    split
    · exact .int (n := digitsValue ds) (by unfold InInt32; omega)
    · exact .long (n := digitsValue ds) (by unfold InInt64; omega)
  have h1 : (Arith.field f).value env d = .ok a := by rw [Arith.value]; exact fieldValue_reaches hn hv
  exact C04_numbers h hdf h1 h2 ha h3

-- `n < 007`
example (env : Env) : evaluate env j!"n < 007" [(['n'], .long 6)] none = .success true :=
  C40_compare (ds := j!"007") (by decide) (by decide) (o := .lt) (f := ['n']) (by decide) (by decide)
    (.cons (w := []) (r := j!" < 007") rfl (.cons (w := [' ']) (r := j!" 007") rfl
      (.cons (w := [' ']) (r := []) rfl (.nil rfl) rfl) rfl) rfl) env noDefault (a := .long 6) (x := 6) (.long (n := 6) (by decide))
    (ks := [['n']]) ⟨⟨by simp, by decide, by decide⟩, 0, by rfl⟩ (.leaf ⟨[], [], rfl, by simp⟩ (by simp))

/-- Forget the leading zeros of a whole number. -/
def noZeros : Lit → Lit
  | .int ds => .int (ds.dropWhile (· == '0'))
  | l => l

theorem digitsValue_dropZeros (ds : JStr) : digitsValue (ds.dropWhile (· == '0')) = digitsValue ds := by
  induction ds with
  | nil => rfl
  | cons c cs ih =>
    by_cases hc : c = '0'
    · subst hc
      rw [List.dropWhile_cons_of_pos rfl, ih]; rfl
    · rw [List.dropWhile_cons_of_neg (by simpa using hc)]

theorem noZeros_value (l : Lit) : (noZeros l).value = l.value := by
  cases l with
  | int ds => rw [noZeros, Lit.value, Lit.value, digitsValue_dropZeros]
  | _ => rfl

/-- **C40**, leading zeros make no difference, in any condition. -/
theorem C40_zeros {c c' : Cond} {s s' : JStr} (h : Writes s c) (h' : Writes s' c')
    (he : c.mapLit noZeros = c'.mapLit noZeros) (env : Env) (d : Data) {df : Option JStr} (hdf : DefaultOk df) :
    evaluate env s d df = evaluate env s' d df := by
  rw [h.eval env d hdf, h'.eval env d hdf, ← Cond.mapLit_meaning noZeros_value, he,
    Cond.mapLit_meaning noZeros_value]

/-- **C40**, leading zeros, in any arithmetic expression. -/
theorem C40_zeros_arith {e e' : Arith} {s s' : JStr} (h : WritesArith s e) (h' : WritesArith s' e')
    (he : e.mapLit noZeros = e'.mapLit noZeros) (env : Env) (d : Data) :
    evaluateArith env s d = evaluateArith env s' d := by
  rw [h.eval env d, h'.eval env d, ← Arith.mapLit_value noZeros_value, he, Arith.mapLit_value noZeros_value]

/-- **C40**, too large (partial): an expression in which a number beyond 9223372036854775807 is an operand
fails when it is parsed, wherever the operand stands (`UsesOperand`), whatever the default field. Missing:
the right operand of a comparison of two atoms in the middle of an expression, see
`C40_too_large_unnoticed`, and a number that is the whole expression, see `C40_alone_is_text`. -/
theorem C40_too_large_partial {ds : JStr} (hd : IsDigits ds) (hb : 9223372036854775807 < digitsValue ds)
    {s : JStr} {t : Tree} (ht : parseTokens (lex s) = some t) (hu : UsesOperand ⟨.integer, ds⟩ t) (env : Env)
    (d : Data) (df : Option JStr) :
    (∃ e, parseExpression s df = .failure e) ∧ (∃ e, evaluate env s d df = .failure e) ∧
    (∃ e, evaluateArith env s d = .failure e) := by
  have hp : ∀ df, ∃ e, parseExpression s df = .failure e := by
    intro df
    obtain ⟨e, he⟩ := walk_huge rfl ⟨_, convert_huge hd hb⟩ df hu LState.init
    refine ⟨e, ?_⟩
    rw [parseExpression, ht]
    simp only [listen]
    rw [he]; rfl
  obtain ⟨e, he⟩ := hp df
  obtain ⟨e', he'⟩ := hp none
  exact ⟨⟨e, he⟩, ⟨e, by rw [evaluate, he]; rfl⟩, ⟨e', by rw [evaluateArith, he']; rfl⟩⟩

/-- **C40**, too large, as text: comparing a field with a number beyond 9223372036854775807 fails. -/
theorem C40_too_large_compared {ds : JStr} (hd : IsDigits ds) (hb : 9223372036854775807 < digitsValue ds)
    {f : JStr} (hf : IsName f) (o : CmpOp) {s : JStr} (hs : Written [f, cmpText o, ds] s) (env : Env) (d : Data)
    (df : Option JStr) :
    (∃ e, parseExpression s df = .failure e) ∧ (∃ e, evaluate env s d df = .failure e) := by
  have hl : lex s = [fieldTok f, cmpTok o, ⟨.integer, ds⟩] := by
    refine lex_written ?_ (by simpa [fieldTok, cmpTok] using hs)
    intro t ht
    simp only [List.mem_cons, List.not_mem_nil, or_false] at ht
    rcases ht with rfl | rfl | rfl
    · exact valid_name hf
    · exact valid_cmp o
    · exact classified_valid (.integer hd)
  have hp : parseTokens (lex s) = some (.cmp o (.types (fieldTok f) false) (.types ⟨.integer, ds⟩ false)) := by
    rw [hl]
    exact parse_toks (t := .cmp o (.types (fieldTok f) false) (.types ⟨.integer, ds⟩ false)) (by cases o <;> rfl)
  obtain ⟨e, he⟩ := mapNode_cmp_empty (k := ⟨.integer, ds⟩) rfl ⟨_, convert_huge hd hb⟩ df o (.types (fieldTok f) false)
  have : parseExpression s df = .failure e := by
    rw [parseExpression, hp]
    simp only [listen, walk, LState.init, ok_bind, exitMapped]
    rw [he]; rfl
  exact ⟨⟨e, this⟩, ⟨e, by rw [evaluate, this]; rfl⟩⟩

/-- **C40**, too large, as text: an arithmetic operation on a number beyond 9223372036854775807 fails. -/
theorem C40_too_large_operand {ds : JStr} (hd : IsDigits ds) (hb : 9223372036854775807 < digitsValue ds)
    {f : JStr} (hf : IsName f) (o : ArithOp) {s : JStr}
    (hs : Written [f, arithText o, ds] s ∨ Written [ds, arithText o, f] s) (env : Env) (d : Data) :
    ∃ e, evaluateArith env s d = .failure e := by
  have hvf := valid_name hf
  have hvo := valid_arith o
  have hvd : ValidTok ⟨.integer, ds⟩ := classified_valid (.integer hd)
  rcases hs with hs | hs
  · have hl : lex s = [fieldTok f, arithTok o, ⟨.integer, ds⟩] := by
      refine lex_written ?_ (by simpa [fieldTok, arithTok] using hs)
      intro t ht
      simp only [List.mem_cons, List.not_mem_nil, or_false] at ht
      rcases ht with rfl | rfl | rfl <;> assumption
    refine (C40_too_large_partial hd hb (s := s)
      (t := .arith o (.types (fieldTok f) false) (.types ⟨.integer, ds⟩ false)) ?_ .arithR env d none).2.2
    rw [hl]
    exact parse_toks (t := .arith o (.types (fieldTok f) false) (.types ⟨.integer, ds⟩ false)) (by cases o <;> rfl)
  · have hl : lex s = [⟨.integer, ds⟩, arithTok o, fieldTok f] := by
      refine lex_written ?_ (by simpa [fieldTok, arithTok] using hs)
      intro t ht
      simp only [List.mem_cons, List.not_mem_nil, or_false] at ht
      rcases ht with rfl | rfl | rfl <;> assumption
    refine (C40_too_large_partial hd hb (s := s)
      (t := .arith o (.types ⟨.integer, ds⟩ false) (.types (fieldTok f) false)) ?_ .arithL env d none).2.2
    rw [hl]
    exact parse_toks (t := .arith o (.types ⟨.integer, ds⟩ false) (.types (fieldTok f) false)) (by cases o <;> rfl)

/-- **C40 (negation).** A digit sequence that is the whole expression is returned as text, however large and
with its leading zeros. -/
theorem C40_alone_is_text {ds : JStr} (hd : IsDigits ds) {s : JStr} (hs : Written [ds] s) (env : Env) (d : Data) :
    evaluateArith env s d = .success (.str ds) := by
  have e : lex s = [⟨.integer, ds⟩] :=
    lex_written (ts := [⟨.integer, ds⟩])
      (by intro t ht; rw [List.mem_singleton.mp ht]; exact classified_valid (.integer hd)) hs
  have hp : parseExpression s none = .success (.unary .string (.str ds)) := by
    rw [parseExpression, e]
    have : parseTokens [⟨.integer, ds⟩] = some (.types ⟨.integer, ds⟩ false) := by rfl
    rw [this]
    have hc : convertValue ds .string = .ok (.str ds) := by
      obtain ⟨hne, hall⟩ := hd
      cases ds with
      | nil => exact absurd rfl hne
      | cons c cs =>
        have hc := (List.all_eq_true.mp hall) c List.mem_cons_self
        have h1 : c ≠ '\'' := by rintro rfl; exact absurd hc (by decide)
        have h2 : c ≠ '"' := by rintro rfl; exact absurd hc (by decide)
        rw [convertValue, if_neg (by simp [h1]), if_neg (by simp [h2])]
    simp only [listen, walk, LState.init, ok_bind, exitParse, hc]
    rfl
  rw [evaluateArith, hp]; rfl

/-- **C40 (negation).** A number that fits no type goes unnoticed: the comparison takes the membership test
before it as its operand. -/
theorem C40_too_large_unnoticed (env : Env) :
    evaluate env j!"max(1, min(5, 7)) > 3 OR (b IN (1) OR c = 99999999999999999999)"
      [(['b'], .int 1), (['c'], .bool true)] none = .success true := by krfl

example (env : Env) (d : Data) : evaluateArith env j!"0002147483648 - 0" d = .success (.long 2147483648) :=
  (C40_value (ds := j!"0002147483648") (by decide)
    (.cons (w := []) (r := j!" - 0") rfl (.cons (w := [' ']) (r := j!" 0") rfl
      (.cons (w := [' ']) (r := []) rfl (.nil rfl) rfl) rfl) rfl) env d).2 (by decide) (by decide)

example (env : Env) (d : Data) : evaluate env j!"a = 007 AND b > 0" d none = evaluate env j!"a = 7 AND b > 00" d none :=
  C40_zeros
    (c := .conn true (.cmp .eq (.field ['a']) (.lit (.int j!"007"))) (.cmp .gt (.field ['b']) (.lit (.int ['0']))))
    (c' := .conn true (.cmp .eq (.field ['a']) (.lit (.int ['7']))) (.cmp .gt (.field ['b']) (.lit (.int j!"00"))))
    (writes_of (by krfl)) (writes_of (by krfl)) rfl env d noDefault

/-- `sum(1, 2 + 9223372036854775808)`. -/
example (env : Env) (d : Data) : ∃ e, evaluateArith env j!"sum(1, 2 + 9223372036854775808)" d = .failure e :=
  (C40_too_large_partial (ds := j!"9223372036854775808") (by decide) (by decide)
    (t := .func .sum [.types ⟨.integer, ['1']⟩ false,
      .arith .add (.types ⟨.integer, ['2']⟩ false) (.types ⟨.integer, j!"9223372036854775808"⟩ false)])
    (by krfl) (.inArg (.tail _ (.head _)) .arithR) env d none).2.2

end BoolParser
