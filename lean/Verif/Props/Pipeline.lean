import Verif.Lemmas.Paths
import Verif.Lemmas.Fragment
import Verif.Lemmas.Checker
/-!
# Properties of whole evaluations, from the text to the outcome

C01, C35, C36, C41, C42, C43, C44, C52, C53, C55.

`evaluate env s d df` is `BooleanExpressionEvaluator.evaluate(s, d, df)`, `evaluateArith env s d` is
`ArithmeticExpressionEvaluator.evaluate(s, d)`; `Writes s c` says that the text `s` writes the condition
`c` (`Spec/Fragment.lean`, `Spec/Expr.lean`).
-/

namespace BoolParser
open Spec

/-! ## C35 A boolean expression means what it says -/

/-- **C35.** Every text of a condition built from comparisons of fields and literals, AND, OR, NOT and
parentheses evaluates to the meaning of the condition. -/
theorem C35_boolean_expression {c : Cond} (hb : c.basic = true) (hv : c.Valid) (hg : c.Grouped) {s : JStr}
    (hs : Renders c.lexemes s) (env : Env) (d : Data) {df : Option JStr} (hdf : DefaultOk df) :
    evaluate env s d df = .ofResult (c.meaning env d df) :=
  (basic_writes hb hv hg hs).eval env d hdf

/-- **C35**, larger language: range tests, IN, NOT IN, CONTAINS, null checks, arithmetic and function calls
as operands, omitted operands. -/
theorem C35_general {c : Cond} {s : JStr} (h : Writes s c) (env : Env) (d : Data) {df : Option JStr}
    (hdf : DefaultOk df) : evaluate env s d df = .ofResult (c.meaning env d df) :=
  h.eval env d hdf

theorem meaning_truth (env : Env) (d : Data) (df : Option JStr) (ρ : CmpOp × Arith × Arith → Bool) :
    (c : Cond) → c.basic = true →
    (∀ p ∈ c.comparisons, (Cond.cmp p.1 p.2.1 p.2.2).meaning env d df = .ok (ρ p)) →
    c.meaning env d df = .ok (c.truth ρ)
  | .cmp o l r, _, h => h (o, l, r) (by simp [Cond.comparisons])
  | .not c, hb, h => by
    rw [Cond.meaning, meaning_truth env d df ρ c hb h, Cond.truth]; rfl
  | .group c, hb, h => by
    rw [Cond.meaning, meaning_truth env d df ρ c hb h, Cond.truth]
  | .conn conj l r, hb, h => by
    rw [Cond.basic, Bool.and_eq_true] at hb
    rw [Cond.meaning, meaning_truth env d df ρ l hb.1 (fun p hp => h p (by simp [Cond.comparisons, hp])),
      meaning_truth env d df ρ r hb.2 (fun p hp => h p (by simp [Cond.comparisons, hp])), ok_bind]
    cases conj <;> simp only [Cond.truth] <;> cases l.truth ρ <;> cases r.truth ρ <;> rfl

/-- **C35**, two-valued form: when no comparison of the expression fails, the result is the propositional
combination of the comparisons' truth values. -/
theorem C35_truth_table {c : Cond} (hb : c.basic = true) (hv : c.Valid) (hg : c.Grouped) {s : JStr}
    (hs : Renders c.lexemes s) (env : Env) (d : Data) {df : Option JStr} (hdf : DefaultOk df)
    (ρ : CmpOp × Arith × Arith → Bool)
    (h : ∀ p ∈ c.comparisons, (Cond.cmp p.1 p.2.1 p.2.2).meaning env d df = .ok (ρ p)) :
    evaluate env s d df = .success (c.truth ρ) := by
  rw [C35_boolean_expression hb hv hg hs env d hdf, meaning_truth env d df ρ c hb h]; rfl

/-- `a >= 5 AND NOT (b = 'x' OR c < d)`. -/
def demo : Cond :=
  .conn true (.cmp .ge (.field ['a']) (.lit (.int ['5'])))
    (.not (.group (.conn false (.cmp .eq (.field ['b']) (.lit (.str '\'' ['x'])))
      (.cmp .lt (.field ['c']) (.field ['d'])))))

theorem demo_writes : Writes j!" a>=5 and NOT(b='x'||c <d)" demo := writes_of (by krfl)

example (env : Env) (d : Data) :
    evaluate env j!" a>=5 and NOT(b='x'||c <d)" d none = .ofResult (demo.meaning env d none) :=
  C35_boolean_expression (by rfl) demo_writes.valid demo_writes.grouped demo_writes.renders env d
    (by intro f h; cases h)

/-! ## C36 Arithmetic expressions mean what they say -/

/-- **C36.** Every text of an arithmetic expression over fields and literals with the six operators and
parentheses evaluates to its value, operands left to right. -/
theorem C36_arithmetic_expression {e : Arith} (hb : e.basic = true) (ha : e.isAtom = false) (hv : e.Valid)
    (hg : e.Grouped) {s : JStr} (hs : Renders e.lexemes s) (env : Env) (d : Data) :
    evaluateArith env s d = .ofResult (e.value env d) :=
  (abasic_writes hb ha hv hg hs).eval env d

theorem paren_value (env : Env) (d : Data) (e : Arith) : e.paren.value env d = e.value env d := by
  unfold Arith.paren; split
  · rfl
  · rw [Arith.value]

theorem paren_level (e : Arith) : e.paren.level = 16 := by
  unfold Arith.paren; split
  · rename_i h; cases e <;> first | rfl | cases h
  · rfl

theorem strength_lt (o : ArithOp) : strength o < 16 := by cases o <;> decide

theorem paren_basic {e : Arith} (h : e.basic = true) : e.paren.basic = true := by
  unfold Arith.paren; split
  · exact h
  · rename_i ha; rw [Arith.basic, h]; simp [ha]

theorem paren_valid {e : Arith} (h : e.Valid) : e.paren.Valid := by
  unfold Arith.paren; split
  · exact h
  · rw [Arith.Valid]; exact h

theorem paren_grouped {e : Arith} (h : e.Grouped) : e.paren.Grouped := by
  unfold Arith.paren; split
  · exact h
  · rw [Arith.Grouped]; exact h

/-- **C36**, bottom-up form: an operator between two operands, each in parentheses when compound,
evaluates the left operand, then the right one, then applies the operator. -/
theorem C36_bottom_up (o : ArithOp) {l r : Arith} (hl : l.basic = true) (hr : r.basic = true)
    (vl : l.Valid) (vr : r.Valid) (gl : l.Grouped) (gr : r.Grouped) {s : JStr}
    (hs : Renders (Arith.apart o l r).lexemes s) (env : Env) (d : Data) :
    evaluateArith env s d = .ofResult (do
      let a ← l.value env d
      let b ← r.value env d
      Arith.apply env o a b) := by
  rw [C36_arithmetic_expression (e := Arith.apart o l r) _ rfl _ _ hs]
  · rw [Arith.apart, Arith.value, paren_value, paren_value]
  · rw [Arith.apart, Arith.basic, paren_basic hl, paren_basic hr]; rfl
  · rw [Arith.apart, Arith.Valid]; exact ⟨paren_valid vl, paren_valid vr⟩
  · rw [Arith.apart, Arith.Grouped, paren_level, paren_level]
    exact ⟨paren_grouped gl, paren_grouped gr, Nat.le_of_lt (strength_lt o), strength_lt o⟩

/-- **C36**, larger language: negations and function calls. -/
theorem C36_general {e : Arith} {s : JStr} (h : WritesArith s e) (env : Env) (d : Data) :
    evaluateArith env s d = .ofResult (e.value env d) :=
  h.eval env d

/-- `(a + 5) * (b - 2.50)`. -/
def arithDemo : Arith :=
  .op .mul (.group (.op .add (.field ['a']) (.lit (.int ['5']))))
    (.group (.op .sub (.field ['b']) (.lit (.dec ['2'] j!"50"))))

theorem arithDemo_writes : WritesArith j!"(a+5)*( b - 2.50 )" arithDemo := writesArith_of (by krfl)

example (env : Env) : evaluateArith env j!"(a+5)*( b - 2.50 )" [(['a'], .int 3), (['b'], .int 4)]
    = .success (.dec ⟨1200, 2⟩) := by
  rw [C36_arithmetic_expression (by rfl) (by rfl) arithDemo_writes.valid arithDemo_writes.grouped
    arithDemo_writes.renders]
  krfl

/-! ## C01 AND, OR, NOT -/

/-- **C01**, AND: the left operand decides first; a failure of the right operand is only seen when the left
one is true. -/
theorem C01_and {l r : Cond} {sl sr s : JStr} (hl : Writes sl l) (hr : Writes sr r)
    (h : Writes s (.conn true l r)) (env : Env) (d : Data) {df : Option JStr} (hdf : DefaultOk df) :
    evaluate env s d df =
      match evaluate env sl d df with
      | .success true => evaluate env sr d df
      | .success false => .success false
      | .failure e => .failure e
      | .syntaxError => .syntaxError := by
  rw [h.eval env d hdf, hl.eval env d hdf, hr.eval env d hdf, Cond.meaning]
  cases l.meaning env d df with
  | error e => rfl
  | ok b => cases b <;> rfl

/-- **C01**, OR. -/
theorem C01_or {l r : Cond} {sl sr s : JStr} (hl : Writes sl l) (hr : Writes sr r)
    (h : Writes s (.conn false l r)) (env : Env) (d : Data) {df : Option JStr} (hdf : DefaultOk df) :
    evaluate env s d df =
      match evaluate env sl d df with
      | .success true => .success true
      | .success false => evaluate env sr d df
      | .failure e => .failure e
      | .syntaxError => .syntaxError := by
  rw [h.eval env d hdf, hl.eval env d hdf, hr.eval env d hdf, Cond.meaning]
  cases l.meaning env d df with
  | error e => rfl
  | ok b => cases b <;> rfl

/-- **C01**, NOT: the opposite boolean, the same failure. -/
theorem C01_not {c : Cond} {sc s : JStr} (hc : Writes sc c) (h : Writes s (.not c)) (env : Env) (d : Data)
    {df : Option JStr} (hdf : DefaultOk df) :
    evaluate env s d df = (evaluate env sc d df).map (!·) := by
  rw [h.eval env d hdf, hc.eval env d hdf, Cond.meaning]
  cases c.meaning env d df <;> rfl

/-- **C01**, parentheses do not change the outcome. -/
theorem C01_paren {c : Cond} {sc s : JStr} (hc : Writes sc c) (h : Writes s (.group c)) (env : Env) (d : Data)
    {df : Option JStr} (hdf : DefaultOk df) : evaluate env s d df = evaluate env sc d df := by
  rw [h.eval env d hdf, hc.eval env d hdf, Cond.meaning]

/-- An operand of a written AND/OR is itself written by any text of it. -/
theorem C01_operands {b : Bool} {l r : Cond} {s sl sr : JStr} (h : Writes s (.conn b l r))
    (hl : Renders l.lexemes sl) (hr : Renders r.lexemes sr) : Writes sl l ∧ Writes sr r := by
  have hv := h.valid; have hg := h.grouped; have hre := h.readable
  rw [Cond.Valid] at hv; rw [Cond.Grouped] at hg; rw [Cond.readable] at hre
  simp only [Bool.and_eq_true] at hre
  exact ⟨⟨hv.1, hg.1, hre.1, hl⟩, ⟨hv.2, hg.2.1, readable_first r _ hre.2.1, hr⟩⟩

/-- **C01**, for every node the parser returns, of whatever expression. -/
theorem C01_nodes (env : Env) (d : Data) (l r : Node) :
    evalBool env d (.and_ l r) =
      (match evalBool env d l with
      | .ok true => evalBool env d r
      | .ok false => .ok false
      | .error e => .error e) ∧
    evalBool env d (.or_ l r) =
      (match evalBool env d l with
      | .ok true => .ok true
      | .ok false => evalBool env d r
      | .error e => .error e) ∧
    evalBool env d (.not_ l) =
      (match evalBool env d l with
      | .ok b => .ok (!b)
      | .error e => .error e) := by
  refine ⟨?_, ?_, ?_⟩
  · rw [evalBool]
    cases evalBool env d l with
    | error e => rfl
    | ok b => cases b <;> rfl
  · rw [evalBool]
    cases evalBool env d l with
    | error e => rfl
    | ok b => cases b <;> rfl
  · rw [evalBool]
    cases evalBool env d l <;> rfl

/-- A skipped operand that would fail: `a = 1 OR nosuch > 2` with `a` equal to 1. -/
example (env : Env) : evaluate env j!"a = 1 OR nosuch > 2" [(['a'], .int 1)] none = .success true := by
  have h : Writes j!"a = 1 OR nosuch > 2"
      (.conn false (.cmp .eq (.field ['a']) (.lit (.int ['1']))) (.cmp .gt (.field j!"nosuch") (.lit (.int ['2'])))) :=
    writes_of (by krfl)
  have hl : Writes j!"a = 1" (.cmp .eq (.field ['a']) (.lit (.int ['1']))) := writes_of (by krfl)
  have hr : Writes j!"nosuch > 2" (.cmp .gt (.field j!"nosuch") (.lit (.int ['2']))) := writes_of (by krfl)
  have hdf : DefaultOk none := by intro f h; cases h
  rw [C01_or hl hr h env _ hdf, hl.eval env _ hdf]
  rfl

/-! ## C41 Spelling of keywords -/

/-- **C41 (partial).** Two texts that differ only in white space and in the choice between the spellings of
keywords and operators evaluate alike. Missing from the full claim: mixed-case spellings. -/
theorem C41_spelling_partial {c : Cond} {s s' : JStr} (h : Writes s c) (h' : Renders c.lexemes s') (env : Env)
    (d : Data) (df : Option JStr) : evaluate env s d df = evaluate env s' d df := by
  rw [evaluate, evaluate, parse_cond h.valid h.grouped h.readable h.renders df,
    parse_cond h.valid h.grouped h.readable h' df]

/-- **C41 (partial)**, arithmetic. -/
theorem C41_spelling_arith_partial {e : Arith} {s s' : JStr} (h : WritesArith s e) (h' : Renders e.lexemes s')
    (env : Env) (d : Data) : evaluateArith env s d = evaluateArith env s' d := by
  rw [h.eval env d, WritesArith.eval ⟨h.valid, h.grouped, h.readable, h.compound, h'⟩ env d]

/-- **C41 (negation).** `And` is not a keyword: `a = 1 AND b = 2` is read, `a = 1 And b = 2` is a syntax
error, `Min(1, 2)` too. -/
theorem C41_mixed_case_not_keyword :
    (∃ n, parseExpression j!"a = 1 AND b = 2" none = .success n) ∧
    parseExpression j!"a = 1 And b = 2" none = .syntaxError ∧
    (∃ n, parseExpression j!"MIN(1, 2)" none = .success n) ∧
    parseExpression j!"Min(1, 2)" none = .syntaxError := by
  refine ⟨⟨.and_ (.cmp (.field (some ['a'])) (.unary .integer (.int 1)) .eq .integer)
    (.cmp (.field (some ['b'])) (.unary .integer (.int 2)) .eq .integer), ?_⟩, ?_,
    ⟨.func .min [.unary .integer (.int 1), .unary .integer (.int 2)], ?_⟩, ?_⟩ <;> krfl

example (env : Env) (d : Data) : evaluate env j!" a>=5 and NOT(b='x'||c <d)" d none
    = evaluate env j!"a >= 5 AND not (b = 'x' or c < d)" d none :=
  C41_spelling_partial demo_writes (renders_of (by krfl)) env d none

/-! ## C42 The default field -/

theorem fill_meaning (env : Env) (d : Data) (f : JStr) (df : Option JStr) : (c : Cond) →
    (c.fill f).meaning env d df = c.meaning env d (some f)
  | .cmp _ _ _ => rfl
  | .cmpD o r => by rw [Cond.fill, Cond.meaning, Cond.meaning, Arith.value]; rfl
  | .isNull _ _ => rfl
  | .range _ _ _ => rfl
  | .isIn _ _ _ => rfl
  | .contains _ _ _ => rfl
  | .notField _ => rfl
  | .not c => by rw [Cond.fill, Cond.meaning, Cond.meaning, fill_meaning env d f df c]
  | .group c => by rw [Cond.fill, Cond.meaning, Cond.meaning, fill_meaning env d f df c]
  | .conn b l r => by
    rw [Cond.fill, Cond.meaning, Cond.meaning, fill_meaning env d f df l, fill_meaning env d f df r]

/-- **C42.** With default field `f`, an expression with omitted left operands evaluates like the expression
with `f` written in those places (with any default field of its own). -/
theorem C42_default_field {c : Cond} {f : JStr} {s s' : JStr} (h : Writes s c) (h' : Writes s' (c.fill f))
    (hf : (lower f == j!"null") = false) (env : Env) (d : Data) {df : Option JStr} (hdf : DefaultOk df) :
    evaluate env s d (some f) = evaluate env s' d df := by
  rw [h.eval env d (df := some f) (by intro g hg; cases hg; exact hf), h'.eval env d hdf, fill_meaning]

theorem fill_asLeft (f : JStr) : (c : Cond) → (c.fill f).asLeft = c.asLeft
  | .cmp _ _ _ => rfl
  | .cmpD _ _ => rfl
  | .isNull _ _ => rfl
  | .range _ _ _ => rfl
  | .isIn _ _ _ => rfl
  | .contains _ _ _ => rfl
  | .notField _ => rfl
  | .not _ => rfl
  | .group c => by rw [Cond.fill, Cond.asLeft, Cond.asLeft, fill_asLeft f c]
  | .conn _ _ _ => rfl

theorem fill_tidy (f : JStr) : (c : Cond) → (c.fill f).tidy = c.tidy
  | .cmp _ _ _ => rfl
  | .cmpD _ _ => by simp [Cond.fill, Cond.tidy, Arith.isAtom, Arith.tidy]
  | .isNull _ _ => rfl
  | .range _ _ _ => rfl
  | .isIn _ _ _ => rfl
  | .contains _ _ _ => rfl
  | .notField _ => rfl
  | .not c => by rw [Cond.fill, Cond.tidy, Cond.tidy, fill_tidy f c]
  | .group c => by rw [Cond.fill, Cond.tidy, Cond.tidy, fill_tidy f c]
  | .conn _ l r => by rw [Cond.fill, Cond.tidy, Cond.tidy, fill_tidy f l, fill_tidy f r]

theorem fill_readable (f : JStr) : (c : Cond) → ∀ left, (c.fill f).readable left = c.readable left
  | .cmp _ _ _, _ => rfl
  | .cmpD _ r, _ => by cases h : r.isAtom <;> simp [Cond.fill, Cond.readable, h, show (Arith.field f).isAtom = true from rfl]
  | .isNull _ _, _ => rfl
  | .range _ _ _, _ => rfl
  | .isIn _ _ _, _ => rfl
  | .contains _ _ _, _ => rfl
  | .notField _, _ => rfl
  | .not c, left => by rw [Cond.fill, Cond.readable, Cond.readable, fill_readable f c]
  | .group c, left => by rw [Cond.fill, Cond.readable, Cond.readable, fill_readable f c]
  | .conn _ l r, left => by
    rw [Cond.fill, Cond.readable, Cond.readable, fill_readable f l, fill_readable f r, fill_asLeft, fill_tidy]

theorem fill_valid {f : JStr} (hf : IsName f) (hn : (lower f == j!"null") = false) : (c : Cond) → c.Valid →
    (c.fill f).Valid
  | .cmp _ _ _, h => h
  | .cmpD _ r, h => ⟨hf, h.1, fun ho => ⟨hn, h.2 ho⟩⟩
  | .isNull _ _, h => h
  | .range _ _ _, h => h
  | .isIn _ _ _, h => h
  | .contains _ _ _, h => h
  | .notField _, h => h
  | .not c, h => fill_valid hf hn c h
  | .group c, h => fill_valid hf hn c h
  | .conn _ l r, h => ⟨fill_valid hf hn l h.1, fill_valid hf hn r h.2⟩

theorem fill_tight (f : JStr) (c : Cond) : (c.fill f).tight = c.tight := by cases c <;> rfl

theorem fill_isConn (f : JStr) (c : Cond) : (c.fill f).isConn = c.isConn := by cases c <;> rfl

theorem fill_grouped (f : JStr) : (c : Cond) → c.Grouped → (c.fill f).Grouped
  | .cmp _ _ _, h => h
  | .cmpD _ r, h => ⟨trivial, h.1, Nat.le_refl 16, h.2⟩
  | .isNull _ _, h => h
  | .range _ _ _, h => h
  | .isIn _ _ _, h => h
  | .contains _ _ _, h => h
  | .notField _, h => h
  | .not c, h => ⟨fill_grouped f c h.1, by rw [fill_tight]; exact h.2⟩
  | .group c, h => fill_grouped f c h
  | .conn _ l r, h => ⟨fill_grouped f l h.1, fill_grouped f r h.2.1, by rw [fill_isConn]; exact h.2.2⟩

/-- The filled-in expression is understood whenever the short one is. -/
theorem C42_filled_understood {c : Cond} {f : JStr} {s s' : JStr} (h : Writes s c) (hf : IsName f)
    (hn : (lower f == j!"null") = false) (hs : Renders (c.fill f).lexemes s') : Writes s' (c.fill f) :=
  ⟨fill_valid hf hn c h.valid, fill_grouped f c h.grouped, by rw [fill_readable]; exact h.readable, hs⟩

/-- Without a default field, an omitted operand makes the comparison fail. -/
theorem C42_no_default {o : CmpOp} {r : Arith} {s : JStr} (h : Writes s (.cmpD o r)) (env : Env) (d : Data) :
    evaluate env s d none = .failure .nullPointer := by
  rw [h.eval env d (by intro f hf; cases hf), Cond.meaning]; rfl

example (env : Env) (d : Data) : evaluate env j!"> 5 AND <10" d (some j!"age")
    = evaluate env j!"age > 5 AND age < 10" d none :=
  C42_default_field (c := .conn true (.cmpD .gt (.lit (.int ['5']))) (.cmpD .lt (.lit (.int j!"10"))))
    (writes_of (by krfl)) (writes_of (by krfl)) (by decide) env d (by intro f h; cases h)

/-! ## C43 Operand order and acceptance -/

/-- **C43 (negation).** `a IN (1) AND b = 5` is rejected, `b = 5 AND a IN (1)` is accepted. -/
theorem C43_order_matters :
    (∃ e, parseExpression j!"a IN (1) AND b = 5" none = .failure e) ∧
    (∃ n, parseExpression j!"b = 5 AND a IN (1)" none = .success n) := by
  refine ⟨⟨.invalidExpression, by krfl⟩,
    ⟨.and_ (.cmp (.field (some ['b'])) (.unary .integer (.int 5)) .eq .integer)
      (.inn ['a'] [.unary .integer (.int 1)]), by krfl⟩⟩

/-- **C43 (partial).** Of two conditions built from comparisons of fields and literals, AND, OR, NOT and
parentheses, both orders are accepted. Missing: the order matters when an IN, range or CONTAINS test comes
directly before a comparison. -/
theorem C43_both_orders_accepted_partial {x y : Cond} (bx : x.basic = true) (by_ : y.basic = true)
    (vx : x.Valid) (vy : y.Valid) (gx : x.Grouped) (gy : y.Grouped) (b : Bool) {s s' : JStr}
    (hs : Renders (Cond.conn b (.group x) (.group y)).lexemes s)
    (hs' : Renders (Cond.conn b (.group y) (.group x)).lexemes s') (df : Option JStr) :
    (∃ n, parseExpression s df = .success n) ∧ ∃ n, parseExpression s' df = .success n := by
  have w := basic_writes (c := .conn b (.group x) (.group y)) (by simp [Cond.basic, bx, by_]) ⟨vx, vy⟩
    ⟨gx, gy, rfl⟩ hs
  have w' := basic_writes (c := .conn b (.group y) (.group x)) (by simp [Cond.basic, bx, by_]) ⟨vy, vx⟩
    ⟨gy, gx, rfl⟩ hs'
  exact ⟨⟨_, parse_cond w.valid w.grouped w.readable w.renders df⟩,
    ⟨_, parse_cond w'.valid w'.grouped w'.readable w'.renders df⟩⟩

example : (∃ n, parseExpression j!"(a = 1) AND (b > 2 OR NOT (c = 3))" none = .success n) ∧
    ∃ n, parseExpression j!"(b > 2 OR NOT (c = 3)) AND (a = 1)" none = .success n :=
  C43_both_orders_accepted_partial
    (x := .cmp .eq (.field ['a']) (.lit (.int ['1'])))
    (y := .conn false (.cmp .gt (.field ['b']) (.lit (.int ['2'])))
      (.not (.group (.cmp .eq (.field ['c']) (.lit (.int ['3']))))))
    (by rfl) (by rfl) (by decide) (by decide) (by decide) (by decide) true
    (renders_of (by krfl)) (renders_of (by krfl)) none

/-! ## C44 Function arguments -/

/-- **C44 (negation).** `min(100, 2 + 3*4)` should see 14, but gives 16. -/
theorem C44_three_operands_wrong (env : Env) (d : Data) :
    evaluateArith env j!"min(100, 2 + 3*4)" d = .success (.int 16) ∧
    evaluateArith env j!"2 + 3*4" d = .success (.int 14) := ⟨by krfl, by krfl⟩

/-- **C44 (partial).** A call whose arguments are atoms, one operator between atoms, or calls of such
arguments evaluates its arguments in order and applies the function. Missing: arguments with three or more
operands. -/
theorem C44_arguments_partial {f : FuncType} {args : List Arith} {s : JStr} (h : WritesArith s (.call f args))
    (env : Env) (d : Data) :
    evaluateArith env s d = .ofResult (do
      let vs ← Arith.values env d args
      callFn env f (flattenItems vs)) := by
  rw [h.eval env d, Arith.value]

example (env : Env) (d : Data) : evaluateArith env j!"max(1 + 2, min(7, 5))" d = .success (.int 5) := by
  have h : WritesArith j!"max(1 + 2, min(7, 5))"
      (.call .max [.op .add (.lit (.int ['1'])) (.lit (.int ['2'])),
        .call .min [.lit (.int ['7']), .lit (.int ['5'])]]) := writesArith_of (by krfl)
  rw [C44_arguments_partial h]
  krfl

/-! ## C52 A bare boolean field -/

theorem lex_one {f : JStr} (hf : IsName f) {s : JStr} (hs : Written [f] s) : lex s = [fieldTok f] :=
  lex_written (ts := [fieldTok f]) (by intro t ht; rw [List.mem_singleton.mp ht]; exact valid_name hf) hs

theorem bare_parse {f : JStr} (hf : IsName f) {s : JStr} (hs : Written [f] s) (df : Option JStr) :
    parseExpression s df = .success (.field (some f)) := by
  rw [parseExpression, lex_one hf hs]; rfl

/-- **C52 (negation).** The evaluation of a bare field name is `false`, whatever the data. -/
theorem C52_bare_field_false {f : JStr} (hf : IsName f) {s : JStr} (hs : Written [f] s) (env : Env) (d : Data)
    (df : Option JStr) : evaluate env s d df = .success false := by
  rw [evaluate, bare_parse hf hs]; rfl

/-- **C52 (partial).** `NOT f` for a boolean field is the opposite of its value. Missing: `f` alone. -/
theorem C52_not_field_partial {f : JStr} (hf : IsName f) {s : JStr} (hs : Renders [j!"NOT", f] s) (env : Env)
    (d : Data) {df : Option JStr} (hdf : DefaultOk df) {b : Bool} {ks : List JStr} (hn : Names f ks)
    (hd : Reaches d ks (.bool b)) : evaluate env s d df = .success (!b) := by
  have h : Writes s (.notField f) := ⟨hf, trivial, rfl, hs⟩
  rw [h.eval env d hdf, Cond.meaning, fieldValue_reaches hn hd]; rfl

example (env : Env) : evaluate env j!"active" [(j!"active", .bool true)] none = .success false :=
  C52_bare_field_false (f := j!"active") (by decide) (.cons (w := []) (r := []) rfl (.nil rfl) rfl) env _ _

example (env : Env) : evaluate env j!"not active" [(j!"active", .bool true)] none = .success false :=
  C52_not_field_partial (f := j!"active") (b := true) (by decide) (renders_of (by krfl)) env _ (df := none) (by intro f h; cases h)
    (ks := [j!"active"]) ⟨⟨by simp, by decide, by decide⟩, 0, by rfl⟩ (.leaf ⟨[], [], rfl, by simp⟩ (by simp))

/-! ## C53 Arithmetic at the top of a boolean evaluation -/

/-- **C53 (negation).** An arithmetic expression given to the boolean evaluator succeeds with `false`,
whatever the data: it is not even evaluated. -/
theorem C53_arithmetic_is_false {e : Arith} {s : JStr} (h : WritesArith s e) (env : Env) (d : Data)
    (df : Option JStr) : evaluate env s d df = .success false := by
  have hr := h.renders
  rw [← arith_toks] at hr
  rw [evaluate, parse_renders (arith_valid e h.valid) (arith_WF e h.valid h.grouped 0 (.inl (Nat.zero_le _)))
    (arith_sup e h.valid .empty false rfl h.readable) (by rw [isAtom_isTypes, h.compound]) hr, Outcome.andThen]
  have hc := compound_node df e false h.compound h.readable
  cases hn : nodeOf df e.tree <;> rw [hn] at hc <;> first | rfl | cases hc

/-- **C53 (negation).** `f > n + m` groups as `(f > n) + m` and is always `false`. -/
theorem C53_comparison_with_sum_is_false {f : JStr} (hf : IsName f) (o : CmpOp) (a : ArithOp) {n m : JStr}
    (hn : (Lit.int n).Valid) (hm : (Lit.int m).Valid) {s : JStr}
    (hs : Written [f, cmpText o, n, arithText a, m] s) (env : Env) (d : Data) (df : Option JStr) :
    evaluate env s d df = .success false := by
  let t : Tree := .arith a (.cmp o (.types (fieldTok f) false) (.types (Lit.int n).tok false))
    (.types (Lit.int m).tok false)
  have e1 : t.toks.map Token.text = [f, cmpText o, n, arithText a, m] := by
    simp [t, Tree.toks, fieldTok, Lit.tok, cmpTok, arithTok]
  have hg : ∀ u ∈ t.toks, ValidTok u := by
    intro u hu
    simp [t, Tree.toks] at hu
    rcases hu with rfl | rfl | rfl | rfl | rfl
    · exact valid_name hf
    · exact valid_cmp o
    · exact Lit.tok_valid hn
    · exact valid_arith a
    · exact Lit.tok_valid hm
  have hw : Tree.WF 0 t = true := by
    cases a <;> rfl
  have hl : listen df t = .ok (.arith a (.cmp (.field (some f)) (.unary (tokType (Lit.int n).tok) (Lit.int n).value)
      o (tokType (Lit.int n).tok)) (.unary (tokType (Lit.int m).tok) (Lit.int m).value)) := by
    have c1 := (Lit.int n).convert hn
    have c2 := (Lit.int m).convert hm
    have m1 : mapTypes df (Lit.int n).tok false = .ok (.unary (tokType (Lit.int n).tok) (Lit.int n).value) := by
      rw [mapTypes, if_neg (by intro h; cases h), if_neg (by decide), c1]; rfl
    simp only [listen, t, walk, exitMapped, ok_bind, LState.init]
    rw [mapNode]
    simp only [useStack, Bool.false_and, Bool.false_eq_true, if_false, mapNode, m1, ok_bind]
    simp only [mapTypes, fieldTok, if_true, ok_bind]
    simp only [Tree.isTypes, Bool.false_and, Bool.false_eq_true, if_false, if_true, ok_bind, pure, Except.pure, popN]
    rw [if_neg (show (Lit.int m).tok.kind ≠ .field by intro h; cases h), c2]; rfl
  rw [evaluate, parseExpression, lex_written hg (by rw [e1]; exact hs), parse_toks hw]
  simp only
  rw [hl]; rfl

/-- `age > 18 + 2` is false for every age. -/
example (env : Env) (d : Data) : evaluate env j!"age > 18 + 2" d none = .success false :=
  C53_comparison_with_sum_is_false (f := j!"age") (n := j!"18") (m := ['2']) (by decide) .gt .add (by decide)
    (by decide)
    (.cons (w := []) rfl (.cons (w := [' ']) rfl (.cons (w := [' ']) rfl (.cons (w := [' ']) rfl
      (.cons (w := [' ']) (r := []) rfl (.nil rfl) rfl) rfl) rfl) rfl) rfl) env d none

/-- **C53 (partial).** With the arithmetic in parentheses the comparison is the one written. Missing: the
unparenthesised form, see above. -/
theorem C53_parenthesised_partial {o : CmpOp} {l e : Arith} {s : JStr} (h : Writes s (.cmp o l (.group e)))
    (env : Env) (d : Data) {df : Option JStr} (hdf : DefaultOk df) :
    evaluate env s d df = .ofResult (do
      let a ← l.value env d
      let b ← e.value env d
      Cond.compare o a b) := by
  rw [h.eval env d hdf, Cond.meaning, Cond.rightValue, Arith.value]
  intro f hf; cases hf

example (env : Env) : evaluate env j!"age > (18 + 2)" [(j!"age", .int 30)] none = .success true := by
  have h : Writes j!"age > (18 + 2)"
      (.cmp .gt (.field j!"age") (.group (.op .add (.lit (.int j!"18")) (.lit (.int ['2']))))) :=
    writes_of (by krfl)
  rw [C53_parenthesised_partial h env _ (df := none) (by intro f h; cases h)]
  krfl

/-! ## C55 Boolean algebra -/

section C55
open Cond
variable {x y z : Cond} {s s' : JStr} (env : Env) (d : Data) {df : Option JStr} (hdf : DefaultOk df)
include hdf

/-- **C55.** De Morgan: `NOT ((x) AND (y))` and `(NOT (x)) OR (NOT (y))`. -/
theorem C55_de_morgan_and (h : Writes s (neg (conj x y))) (h' : Writes s' (disj (neg x) (neg y))) :
    evaluate env s d df = evaluate env s' d df := by
  rw [h.eval env d hdf, h'.eval env d hdf]
  simp only [neg, conj, disj, meaning]
  cases x.meaning env d df with
  | error e => rfl
  | ok a => cases a <;> cases y.meaning env d df <;> rfl

/-- **C55.** De Morgan: `NOT ((x) OR (y))` and `(NOT (x)) AND (NOT (y))`. -/
theorem C55_de_morgan_or (h : Writes s (neg (disj x y))) (h' : Writes s' (conj (neg x) (neg y))) :
    evaluate env s d df = evaluate env s' d df := by
  rw [h.eval env d hdf, h'.eval env d hdf]
  simp only [neg, conj, disj, meaning]
  cases x.meaning env d df with
  | error e => rfl
  | ok a => cases a <;> cases y.meaning env d df <;> rfl

/-- **C55.** Double negation. -/
theorem C55_double_negation (h : Writes s (neg (neg x))) (h' : Writes s' x) :
    evaluate env s d df = evaluate env s' d df := by
  rw [h.eval env d hdf, h'.eval env d hdf]
  simp only [neg, meaning]
  cases x.meaning env d df with
  | error e => rfl
  | ok a => cases a <;> rfl

/-- **C55.** Associativity of AND. -/
theorem C55_assoc_and (h : Writes s (conj (conj x y) z)) (h' : Writes s' (conj x (conj y z))) :
    evaluate env s d df = evaluate env s' d df := by
  rw [h.eval env d hdf, h'.eval env d hdf]
  simp only [conj, meaning]
  cases x.meaning env d df with
  | error e => rfl
  | ok a => cases a <;> rfl

/-- **C55.** Associativity of OR. -/
theorem C55_assoc_or (h : Writes s (disj (disj x y) z)) (h' : Writes s' (disj x (disj y z))) :
    evaluate env s d df = evaluate env s' d df := by
  rw [h.eval env d hdf, h'.eval env d hdf]
  simp only [disj, meaning]
  cases x.meaning env d df with
  | error e => rfl
  | ok a => cases a <;> rfl

/-- **C55.** AND distributes over OR, failures included. -/
theorem C55_distrib_and (h : Writes s (conj x (disj y z))) (h' : Writes s' (disj (conj x y) (conj x z))) :
    evaluate env s d df = evaluate env s' d df := by
  rw [h.eval env d hdf, h'.eval env d hdf]
  simp only [conj, disj, meaning]
  cases x.meaning env d df with
  | error e => rfl
  | ok a =>
    cases a
    · rfl
    · cases y.meaning env d df with
      | error e => rfl
      | ok b => cases b <;> rfl

/-- **C55.** OR distributes over AND, failures included. -/
theorem C55_distrib_or (h : Writes s (disj x (conj y z))) (h' : Writes s' (conj (disj x y) (disj x z))) :
    evaluate env s d df = evaluate env s' d df := by
  rw [h.eval env d hdf, h'.eval env d hdf]
  simp only [conj, disj, meaning]
  cases x.meaning env d df with
  | error e => rfl
  | ok a =>
    cases a
    · cases y.meaning env d df with
      | error e => rfl
      | ok b => cases b <;> rfl
    · rfl

/-- **C55.** Absorption: `(x) AND ((x) OR (y))` is `x`. -/
theorem C55_absorption (h : Writes s (conj x (disj x y))) (h' : Writes s' x) :
    evaluate env s d df = evaluate env s' d df := by
  rw [h.eval env d hdf, h'.eval env d hdf]
  simp only [conj, disj, meaning]
  cases x.meaning env d df with
  | error e => rfl
  | ok a => cases a <;> rfl

/-- **C55.** AND is commutative when neither operand fails. -/
theorem C55_comm_and (h : Writes s (conj x y)) (h' : Writes s' (conj y x)) {sx sy : JStr} (hx : Writes sx x)
    (hy : Writes sy y) {a b : Bool} (ex : evaluate env sx d df = .success a)
    (ey : evaluate env sy d df = .success b) : evaluate env s d df = evaluate env s' d df := by
  rw [hx.eval env d hdf] at ex
  rw [hy.eval env d hdf] at ey
  rw [h.eval env d hdf, h'.eval env d hdf]
  simp only [conj, meaning]
  cases hxm : x.meaning env d df with
  | error e => rw [hxm] at ex; cases ex
  | ok a' =>
    cases hym : y.meaning env d df with
    | error e => rw [hym] at ey; cases ey
    | ok b' => cases a' <;> cases b' <;> rfl

/-- **C55.** OR is commutative when neither operand fails. -/
theorem C55_comm_or (h : Writes s (disj x y)) (h' : Writes s' (disj y x)) {sx sy : JStr} (hx : Writes sx x)
    (hy : Writes sy y) {a b : Bool} (ex : evaluate env sx d df = .success a)
    (ey : evaluate env sy d df = .success b) : evaluate env s d df = evaluate env s' d df := by
  rw [hx.eval env d hdf] at ex
  rw [hy.eval env d hdf] at ey
  rw [h.eval env d hdf, h'.eval env d hdf]
  simp only [disj, meaning]
  cases hxm : x.meaning env d df with
  | error e => rw [hxm] at ex; cases ex
  | ok a' =>
    cases hym : y.meaning env d df with
    | error e => rw [hym] at ey; cases ey
    | ok b' => cases a' <;> cases b' <;> rfl

end C55

/-- On the basic fragment both sides of the laws are always understood, for example De Morgan. -/
theorem C55_basic_de_morgan {x y : Cond} (bx : x.basic = true) (by_ : y.basic = true) (vx : x.Valid)
    (vy : y.Valid) (gx : x.Grouped) (gy : y.Grouped) {s s' : JStr}
    (hs : Renders (Cond.neg (.conj x y)).lexemes s)
    (hs' : Renders (Cond.disj (.neg x) (.neg y)).lexemes s') (env : Env) (d : Data) {df : Option JStr}
    (hdf : DefaultOk df) : evaluate env s d df = evaluate env s' d df :=
  C55_de_morgan_and env d hdf
    (basic_writes (c := Cond.neg (.conj x y)) (by simp [Cond.neg, Cond.conj, Cond.basic, bx, by_]) ⟨vx, vy⟩ ⟨⟨gx, gy, rfl⟩, rfl⟩ hs)
    (basic_writes (c := Cond.disj (.neg x) (.neg y)) (by simp [Cond.neg, Cond.disj, Cond.basic, bx, by_]) ⟨vx, vy⟩
      ⟨⟨gx, rfl⟩, ⟨gy, rfl⟩, rfl⟩ hs')

example (env : Env) (d : Data) : evaluate env j!"NOT ((a = 1) AND (b > 2))" d none
    = evaluate env j!"(NOT (a = 1)) or (not(b>2))" d none :=
  C55_basic_de_morgan (x := .cmp .eq (.field ['a']) (.lit (.int ['1'])))
    (y := .cmp .gt (.field ['b']) (.lit (.int ['2']))) (by rfl) (by rfl) (by decide) (by decide) (by decide)
    (by decide) (renders_of (by krfl)) (renders_of (by krfl)) env d (by intro f h; cases h)

/-- AND is not commutative when an operand fails: with `a` equal to 1 and `b` missing,
`a = 2 AND b = 1` is false, `b = 1 AND a = 2` fails. -/
theorem C55_comm_needs_no_failure (env : Env) :
    evaluate env j!"a = 2 AND b = 1" [(['a'], .int 1)] none = .success false ∧
    evaluate env j!"b = 1 AND a = 2" [(['a'], .int 1)] none = .failure .dataNotFound := ⟨by krfl, by krfl⟩

end BoolParser
