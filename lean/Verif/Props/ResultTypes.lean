import Verif.Lemmas.ResultTypes
import Verif.Lemmas.Checker
import Verif.Props.Arithmetic
import Verif.Model.Recovery
/-!
# Java types of results

C86.
-/

namespace BoolParser
open Spec

/-! ## C86 As what Java type a result comes -/

/-- **C86**, operators. -/
theorem C86_operators {o : ArithOp} {l r : Arith} {s : JStr} (h : WritesArith s (.op o l r)) {env : Env} {d : Data}
    {a b v : Value} (hl : l.value env d = .ok a) (hr : r.value env d = .ok b) (hv : evaluateArith env s d = .success v) :
    OperatorGives o a b v := by
  rw [op_text h hl hr] at hv
  exact operator_gives (ofResult_success hv)

/-- **C86**, minus: the type of the operand. -/
theorem C86_minus {e : Arith} {s : JStr} (h : WritesArith s (.neg e)) {env : Env} {d : Data} {a v : Value}
    (he : e.value env d = .ok a) (hv : evaluateArith env s d = .success v) :
    (IsInteger a ∧ IsInteger v) ∨ (IsLong a = true ∧ IsLong v = true) ∨ (IsBig a ∧ IsBig v) := by
  rw [neg_text h he] at hv
  exact minus_gives (ofResult_success hv)

/-- **C86**, functions. -/
theorem C86_functions {f : FuncType} {args : List Arith} {s : JStr} (h : WritesArith s (.call f args)) {env : Env}
    {d : Data} {ws : List Value} {v : Value} (hi : Items env d args ws) (hv : evaluateArith env s d = .success v) :
    FunctionGives f ws v := by
  rw [call_text h hi] at hv
  exact function_gives (ofResult_success hv)

theorem node_gives {env : Env} {d : Data} {n : Node} {v : Value} (h : evalArith env d n = .ok v) :
    (∃ f, n = .field f) ∨ (∃ t, n = .unary t v) ∨ IsInteger v ∨ IsLong v = true ∨ IsBig v ∨
      (IsText v ∧ ∃ l r, n = .arith .add l r) ∨ (IsFloating v ∧ ∃ items, n = .func .mode items) := by
  have sized : ∀ {w}, Sized w → IsInteger w ∨ IsLong w = true := by
    intro w h
    cases h with
    | int n => exact .inl ⟨n, rfl⟩
    | long _ => exact .inr rfl
  have fraction : ∀ {w}, Fraction w → IsInteger w ∨ IsBig w := by
    intro w h
    cases h with
    | int n => exact .inl ⟨n, rfl⟩
    | big _ => exact .inr ⟨_, rfl⟩
  have short : ∀ {w}, Short w → IsInteger w ∨ IsBig w := by
    intro w h
    cases h with
    | int n => exact .inl ⟨n, rfl⟩
    | big _ => exact .inr ⟨_, rfl⟩
  refine (Classical.em (∃ f, n = .field f)).elim ?_ fun hf => .inr ?_
  · rintro ⟨f, rfl⟩
    exact .inl ⟨f, rfl⟩
  refine (Classical.em (∃ t w, n = .unary t w)).elim ?_ fun hu => .inr ?_
  · rintro ⟨t, w, rfl⟩
    rw [evalArith] at h
    injection h with h
    exact .inl ⟨t, by rw [h]⟩
  cases n with
  | field f => exact absurd ⟨f, rfl⟩ hf
  | unary t w => exact absurd ⟨t, w, rfl⟩ hu
  | neg l =>
    rw [evalArith] at h
    obtain ⟨a, -, h⟩ := bind_ok_inv h
    rcases minus_gives h with h | h | h
    · exact .inl h.2
    · exact .inr (.inl h.2)
    · exact .inr (.inr (.inl h.2))
  | arith o l r =>
    rw [evalArith] at h
    obtain ⟨a, -, h⟩ := bind_ok_inv h
    obtain ⟨b, -, h⟩ := bind_ok_inv h
    have hg := operator_gives h
    have key : o ≠ .add → IsInteger v ∨ IsLong v = true ∨ IsBig v := by
      intro ho
      cases o with
      | add => exact absurd rfl ho
      | sub =>
        simp only [OperatorGives] at hg
        split at hg
        · exact .inr (.inr hg)
        · split at hg
          · exact .inr (.inl hg)
          · exact .inl hg
      | mul =>
        simp only [OperatorGives] at hg
        split at hg
        · exact .inr (.inr hg)
        · exact (sized hg).imp_right .inl
      | div => exact (fraction hg).imp_right .inr
      | mod =>
        simp only [OperatorGives] at hg
        split at hg
        · exact .inr (.inl hg)
        · exact .inl hg
      | exp => exact (short hg).imp_right .inr
    cases o with
    | add =>
      simp only [OperatorGives] at hg
      split at hg
      · split at hg
        · exact .inr (.inr (.inl hg))
        · exact (sized hg).imp_right .inl
      · exact .inr (.inr (.inr (.inl ⟨hg, l, r, rfl⟩)))
    | _ =>
      rcases key (by decide) with h | h | h
      · exact .inl h
      · exact .inr (.inl h)
      · exact .inr (.inr (.inl h))
  | func f items =>
    rw [evalArith] at h
    obtain ⟨vs, -, h⟩ := bind_ok_inv h
    rw [flattenItems_elements] at h
    have hg : FunctionGives f _ v := function_gives h
    have big : IsInteger v ∨ IsBig v → IsInteger v ∨ IsLong v = true ∨ IsBig v ∨
        (IsText v ∧ ∃ l r, Node.func f items = .arith .add l r) ∨ (IsFloating v ∧ ∃ items', Node.func f items = .func .mode items') :=
      fun h => h.imp_right fun h => .inr (.inl h)
    cases f with
    | min => simp only [FunctionGives] at hg; split at hg; exacts [big (fraction hg), big (short hg)]
    | max => simp only [FunctionGives] at hg; split at hg; exacts [big (fraction hg), big (short hg)]
    | sum => simp only [FunctionGives] at hg; split at hg; exacts [big (fraction hg), big (short hg)]
    | avg => exact big (fraction hg)
    | mean => exact big (fraction hg)
    | median => exact big (fraction hg)
    | mode =>
      rcases hg with hg | hg | hg
      · exact (sized hg).imp_right .inl
      · exact big (fraction hg)
      · exact .inr (.inr (.inr (.inr ⟨hg.2, items, rfl⟩)))
    | int => exact .inl hg
    | len => exact .inl hg
    | daysElapsed => exact .inr (.inl hg)
  | _ => cases h

/-- **C86**, every text, well-formed or not: besides the values of fields and literals themselves, results are
`Integer`s, `Long`s and `BigDecimal`s, texts come only from `+`, `Double`s and `Float`s only from MODE. -/
theorem C86_every_text {env : Env} {s : JStr} {d : Data} {n : Node} {v : Value} (hp : parseAny s none = .ok n)
    (hv : evaluateArithAny env s d = .ok v) :
    (∃ f, n = .field f) ∨ (∃ t, n = .unary t v) ∨ IsInteger v ∨ IsLong v = true ∨ IsBig v ∨
      (IsText v ∧ ∃ l r, n = .arith .add l r) ∨ (IsFloating v ∧ ∃ items, n = .func .mode items) := by
  rw [evaluateArithAny, hp, ok_bind] at hv
  exact node_gives hv

/-- **C86**, the same for texts of the grammar. -/
theorem C86_grammar {env : Env} {s : JStr} {d : Data} {n : Node} {v : Value} (hp : parseExpression s none = .success n)
    (hv : evaluateArith env s d = .success v) :
    (∃ f, n = .field f) ∨ (∃ t, n = .unary t v) ∨ IsInteger v ∨ IsLong v = true ∨ IsBig v ∨
      (IsText v ∧ ∃ l r, n = .arith .add l r) ∨ (IsFloating v ∧ ∃ items, n = .func .mode items) := by
  rw [evaluateArith, hp, Outcome.andThen] at hv
  cases he : evalArith env d n with
  | error x => rw [he] at hv; cases hv
  | ok w =>
    rw [he] at hv
    injection hv with hv
    rw [← hv]
    exact node_gives he

/-! ### Cases -/

/-- One `Long` makes a difference a `Long`, even a small one; a sum of the same numbers is an `Integer`. -/
example (env : Env) : evaluateArith env j!"a - b" [(['a'], .long 7), (['b'], .int 2)] = .success (.long 5) ∧
    evaluateArith env j!"a + b" [(['a'], .long 7), (['b'], .int 2)] = .success (.int 9) := ⟨by krfl, by krfl⟩

example (env : Env) (v : Value) (h : evaluateArith env j!"a - b" [(['a'], .long 7), (['b'], .int 2)] = .success v) :
    IsLong v = true :=
  C86_operators (o := .sub) (a := .long 7) (b := .int 2) (l := .field ['a']) (r := .field ['b']) (writesArith_of (by krfl)) (by rfl) (by rfl) h

/-- A quotient is never a `Long`: a whole one too large for an `Integer` fails, while a product is a `Long`. -/
example (env : Env) : evaluateArith env j!"a / 1" [(['a'], .long 3000000000)] = .failure .arithmetic ∧
    evaluateArith env j!"a * 1" [(['a'], .long 3000000000)] = .success (.long 3000000000) := ⟨by krfl, by krfl⟩

example (env : Env) (a : Value) (v : Value) (h : evaluateArith env j!"a / 4" [(['a'], a)] = .success v) (ha : a ≠ .null) :
    Fraction v :=
  C86_operators (o := .div) (a := a) (b := .int 4) (l := .field ['a']) (r := .lit (.int ['4'])) (writesArith_of (by krfl)) (by cases a <;> first | rfl | exact absurd rfl ha) (by rfl) h

/-- The negative of a small `Long` is a `Long`. -/
example (env : Env) (n : ℤ) (v : Value) (h : evaluateArith env j!"-a" [(['a'], .long n)] = .success v) : IsLong v = true := by
  rcases C86_minus (e := .field ['a']) (writesArith_of (by krfl)) (by rfl) h with h | h | h
  · obtain ⟨_, h⟩ := h.1; cases h
  · exact h.2
  · obtain ⟨_, h⟩ := h.1; cases h

/-- The largest of some `Long`s is no `Long`: an `Integer` if it fits, a `BigDecimal` otherwise. -/
example (env : Env) (m n : ℤ) (v : Value)
    (h : evaluateArith env j!"max(a, b)" [(['a'], .long m), (['b'], .long n)] = .success v) : Short v :=
  C86_functions (f := .max) (args := [.field ['a'], .field ['b']]) (ws := [.long m, .long n]) (writesArith_of (by krfl)) ⟨_, rfl, rfl⟩ h

example (env : Env) : evaluateArith env j!"max(a, b)" [(['a'], .long 3000000000), (['b'], .long 1)] =
    .success (.dec ⟨3000000000, 0⟩) := by krfl

/-- MODE hands a `Double` through. -/
example (env : Env) : evaluateArith env j!"mode(a, b)" [(['a'], .dbl j!"2.0"), (['b'], .int 1)] =
    .success (.dbl j!"2.0") := by krfl

end BoolParser
