import Verif.Lemmas.Ladder
import Verif.Lemmas.Checker
/-!
# Precedence

C37.
-/

namespace BoolParser
open Spec

/-! ## C37 Operator precedence and associativity -/

/-- **C37**, grammar: a text written with the parentheses the binding strengths require, and possibly others, is
accepted, and its parse tree is the operator tree. -/
theorem C37_reads {e : Expr} {ls : List JStr} {s : JStr} (hv : e.Valid) (h : Prints 0 e ls) (hs : Written ls s) :
    ∃ t, parseTokens (lex s) = some t ∧ noParens t = e.tree := by
  obtain ⟨t, ht⟩ := prints_reads h hv
  have hl : lex s = t.toks := lex_written ht.valid (by rw [ht.text]; exact hs)
  exact ⟨t, by rw [hl]; exact parse_toks (ht.wf 0 (Nat.le_refl _)), ht.shape⟩

/-- **C37**, grammar: printed with only the parentheses the binding strengths require, every operator tree is read
back. -/
theorem C37_roundtrip {e : Expr} {s : JStr} (hv : e.Valid) (hs : Written e.print s) :
    ∃ t, parseTokens (lex s) = some t ∧ noParens t = e.tree :=
  C37_reads hv (prints_print e 0 (Nat.zero_le _)) hs

/-- **C37**: no text writes two operator trees. -/
theorem C37_unambiguous {e e' : Expr} {ls : List JStr} (hv : e.Valid) (hv' : e'.Valid) (h : Prints 0 e ls)
    (h' : Prints 0 e' ls) : e.tree = e'.tree := by
  obtain ⟨t, ht, hs⟩ := C37_reads hv h (written_spaced ls)
  obtain ⟨t', ht', hs'⟩ := C37_reads hv' h' (written_spaced ls)
  rw [ht] at ht'
  cases ht'
  exact hs.symm.trans hs'

/-- **C37**, arithmetic through the API: printed with only the required parentheses, an expression of `+ - * / % ^`
is parsed to the node of the expression, and evaluated to its value. Missing: unary minus and calls inside an
expression (`C37_garbled`); conditions see `C37_conditions_partial`. -/
theorem C37_arithmetic_partial {e : Arith} {s : JStr} (hp : e.plain = true) (ha : e.isAtom = false) (hv : e.Valid)
    (hs : Renders e.minimal.lexemes s) (env : Env) (d : Data) (df : Option JStr) :
    parseExpression s df = .success e.node ∧ evaluateArith env s d = .ofResult (e.value env d) := by
  have hg := minimal_grouped e hp
  have hv' := minimal_valid e hv
  have hb := minimal_basic e hp
  have ha' : e.minimal.isAtom = false := by rw [minimal_isAtom]; exact ha
  have hw := abasic_writes hb ha' hv' hg hs
  exact ⟨plain_parse hp ha hv hs df, by rw [hw.eval env d, minimal_value]⟩

/-- **C37**, the parentheses of an expression leave no trace in its node. -/
theorem C37_node {e : Arith} {s : JStr} (h : WritesArith s e) (df : Option JStr) :
    parseExpression s df = .success e.node :=
  h.node df

/-- **C37**, conditions through the API: printed with only the required parentheses, comparisons combined with
AND, OR and NOT mean what the tree means. -/
theorem C37_conditions_partial {c : Cond} {s : JStr} (hp : c.plain = true) (hv : c.Valid)
    (hs : Renders c.minimal.lexemes s) (env : Env) (d : Data) (df : Option JStr) (hdf : DefaultOk df) :
    evaluate env s d df = .ofResult (c.meaning env d df) := by
  rw [(basic_writes (cminimal_basic c hp) (cminimal_valid c hp hv) (cminimal_grouped c hp) hs).eval env d hdf,
    cminimal_meaning]

/-- **C37** fails through the API: `(a + b) * -c`, which the grammar accepts, is rejected. -/
theorem C37_garbled : (parseTokens (lex j!"(a + b) * -c")).isSome = true ∧
    parseExpression j!"(a + b) * -c" none = .failure .invalidExpression := ⟨by krfl, by krfl⟩

/-- Every pair of operators: `a o b o' c` groups to the left iff the first operator binds at least as strongly as
the second one. -/
theorem C37_chain {o o' : ArithOp} {a b c : JStr} {s : JStr} (ha : IsName a) (hb : IsName b) (hc : IsName c)
    (hs : Renders [a, arithText o, b, arithText o', c] s) (df : Option JStr) :
    parseExpression s df = .success
      (if strength o' ≤ strength o then .arith o' (.arith o (.field (some a)) (.field (some b))) (.field (some c))
       else .arith o (.field (some a)) (.arith o' (.field (some b)) (.field (some c)))) := by
  have hso := strength_bounds o
  have hso' := strength_bounds o'
  split
  · rename_i h
    have := plain_parse (e := .op o' (.op o (.field a) (.field b)) (.field c)) (s := s) rfl rfl
      ⟨⟨ha, hb⟩, hc⟩ (by
        have h1 : decide ((Arith.op o (.field a) (.field b)).level < strength o') = false := by
          exact decide_eq_false (by simp only [Arith.level]; omega)
        have h2 : decide ((Arith.field c).level < strength o' + 1) = false := by
          exact decide_eq_false (by simp only [Arith.level]; omega)
        have h3 : decide ((Arith.field a).level < strength o) = false := by
          exact decide_eq_false (by simp only [Arith.level]; omega)
        have h4 : decide ((Arith.field b).level < strength o + 1) = false := by
          exact decide_eq_false (by simp only [Arith.level]; omega)
        simp only [Arith.minimal, h1, h2, h3, h4]
        exact hs) df
    exact this
  · rename_i h
    have := plain_parse (e := .op o (.field a) (.op o' (.field b) (.field c))) (s := s) rfl rfl
      ⟨ha, hb, hc⟩ (by
        have h1 : decide ((Arith.field a).level < strength o) = false := by
          exact decide_eq_false (by simp only [Arith.level]; omega)
        have h2 : decide ((Arith.op o' (.field b) (.field c)).level < strength o + 1) = false := by
          exact decide_eq_false (by simp only [Arith.level]; omega)
        have h3 : decide ((Arith.field b).level < strength o') = false := by
          exact decide_eq_false (by simp only [Arith.level]; omega)
        have h4 : decide ((Arith.field c).level < strength o' + 1) = false := by
          exact decide_eq_false (by simp only [Arith.level]; omega)
        simp only [Arith.minimal, h1, h2, h3, h4]
        exact hs) df
    exact this

/-- The ladder: `^ / * % + -`, strongest first. -/
theorem C37_ladder : strength .exp > strength .div ∧ strength .div > strength .mul ∧ strength .mul > strength .mod ∧
    strength .mod > strength .add ∧ strength .add > strength .sub := by decide

example : parseExpression j!"a - b + c" none = .success (.arith .sub (.field (some j!"a"))
    (.arith .add (.field (some j!"b")) (.field (some j!"c")))) :=
  C37_chain (o := .sub) (o' := .add) (by decide +kernel) (by decide +kernel) (by decide +kernel) (renders_of (by krfl)) none

example : parseExpression j!"a - b - c" none = .success (.arith .sub (.arith .sub (.field (some j!"a"))
    (.field (some j!"b"))) (.field (some j!"c"))) :=
  C37_chain (o := .sub) (o' := .sub) (by decide +kernel) (by decide +kernel) (by decide +kernel) (renders_of (by krfl)) none

/-- `-a = 5 AND (b OR c)` and `-(a = 5) AND (b OR c)` write the same tree. -/
example : (Expr.conn true (.neg (.cmp .eq (.field j!"a") (.lit (.int j!"5"))))
    (.conn false (.field j!"b") (.field j!"c"))).print =
    [j!"-", j!"a", cmpText .eq, j!"5", connText true, j!"(", j!"b", connText false, j!"c", j!")"] := by krfl

example : ∃ t, parseTokens (lex (spaced (Expr.conn true (.neg (.cmp .eq (.field j!"a") (.lit (.int j!"5"))))
    (.conn false (.field j!"b") (.call .max [.lit (.int j!"5"), .not (.field j!"c")]))).print)) = some t ∧
    noParens t = .bin true (.neg (.cmp .eq (.types (nameTok j!"a") false) (.types ⟨.integer, j!"5"⟩ false)))
      (.bin false (.types (nameTok j!"b") false)
        (.func .max [.types ⟨.integer, j!"5"⟩ false, .not_ (.types (nameTok j!"c") false)])) :=
  C37_roundtrip (e := .conn true (.neg (.cmp .eq (.field j!"a") (.lit (.int j!"5"))))
    (.conn false (.field j!"b") (.call .max [.lit (.int j!"5"), .not (.field j!"c")])))
    ⟨⟨(by decide +kernel : IsName _), (by decide +kernel : Lit.Valid _)⟩, (by decide +kernel : IsName _), by simp,
      (by decide +kernel : Lit.Valid _), (by decide +kernel : IsName _), trivial⟩ (written_spaced _)

example (env : Env) (m n k : ℤ) : evaluateArith env j!"(a - b) * c" [(['a'], .int m), (['b'], .int n), (['c'], .int k)] =
    .ofResult ((Arith.op .mul (.op .sub (.field ['a']) (.field ['b'])) (.field ['c'])).value env
      [(['a'], .int m), (['b'], .int n), (['c'], .int k)]) :=
  (C37_arithmetic_partial (e := .op .mul (.op .sub (.field ['a']) (.field ['b'])) (.field ['c'])) rfl rfl
    (by decide +kernel) (renders_of (by krfl)) env _ none).2

example (env : Env) (d : Data) : evaluate env j!"a = 1 OR b = 2 AND NOT (c = 3)" d none =
    .ofResult ((Cond.conn true (.conn false (.cmp .eq (.field ['a']) (.lit (.int ['1'])))
      (.cmp .eq (.field ['b']) (.lit (.int ['2'])))) (.not (.cmp .eq (.field ['c']) (.lit (.int ['3']))))).meaning env d
      none) :=
  C37_conditions_partial (c := .conn true (.conn false (.cmp .eq (.field ['a']) (.lit (.int ['1'])))
      (.cmp .eq (.field ['b']) (.lit (.int ['2'])))) (.not (.cmp .eq (.field ['c']) (.lit (.int ['3']))))) rfl
    (by decide +kernel) (renders_of (by krfl)) env d none
    (fun _ h => by cases h)

end BoolParser
