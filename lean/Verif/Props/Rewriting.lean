import Verif.Lemmas.CondNode
import Verif.Lemmas.Inline
import Verif.Lemmas.Reference
import Verif.Spec.Polynomial
import Verif.Props.Arithmetic
import Verif.Props.Pipeline
/-!
# Nodes, and rewriting expressions

C65 parsed nodes, C66 values in place of fields, C67 polynomials.
-/

namespace BoolParser
open Spec

/-! ## C65 The parsed node mirrors the text -/

/-- **C65**, conditions. -/
theorem C65_condition {s : JStr} {c : Cond} (h : Writes s c) (df : Option JStr) :
    parseExpression s df = .success (c.node df) := h.node df

/-- **C65**, arithmetic expressions. -/
theorem C65_arithmetic {s : JStr} {e : Arith} (h : WritesArith s e) (df : Option JStr) :
    parseExpression s df = .success e.node := h.node df

/-- **C65**, a lone field. -/
theorem C65_lone_field {f : JStr} (hf : IsName f) {s : JStr} (hs : Written [f] s) (df : Option JStr) :
    parseExpression s df = .success (.field (some f)) := bare_parse hf hs df

/-- **C65**: texts of one condition, however spaced and spelled, have equal nodes. -/
theorem C65_same {s s' : JStr} {c : Cond} (h : Writes s c) (h' : Writes s' c) (df : Option JStr) :
    parseExpression s df = parseExpression s' df := by rw [h.node df, h'.node df]

/-- **C65**: the default field shows in the node of a condition only where an operand is omitted. -/
theorem C65_default {s : JStr} {c : Cond} (h : Writes s c) (hc : c.usesDefault = false) (df df' : Option JStr) :
    parseExpression s df = parseExpression s df' := by
  have key : ∀ c : Cond, c.usesDefault = false → c.node df = c.node df' := by
    intro c
    induction c with
    | cmpD o r => intro h; simp [Cond.usesDefault] at h
    | not c ih => intro h; simp only [Cond.node, ih (by simpa [Cond.usesDefault] using h)]
    | group c ih => intro h; simp only [Cond.node, ih (by simpa [Cond.usesDefault] using h)]
    | conn b l r ihl ihr =>
      intro h
      simp only [Cond.usesDefault, Bool.or_eq_false_iff] at h
      simp only [Cond.node, ihl h.1, ihr h.2]
    | _ => intro _; rfl
  rw [h.node df, h.node df', key c hc]

example : parseExpression j!"( a  >= 5 and NOT b in (1, 'x') )" none
    = .success (.and_ (.cmp (.field (some ['a'])) (.unary .integer (.int 5)) .ge .integer)
        (.not_ (.inn ['b'] [.unary .integer (.int 1), .unary .string (.str ['x'])]))) := by
  rw [C65_condition (c := .group (.conn true (.cmp .ge (.field ['a']) (.lit (.int ['5'])))
    (.not (.isIn ['b'] false [.lit (.int ['1']), .lit (.str '\'' ['x'])])))) (writes_of (by krfl))]
  rfl

example : parseExpression j!"> 5 OR a < 3" (some j!"age")
    = .success (.or_ (.cmp (.field (some j!"age")) (.unary .integer (.int 5)) .gt .integer)
        (.cmp (.field (some ['a'])) (.unary .integer (.int 3)) .lt .integer)) := by
  rw [C65_condition (c := .conn false (.cmpD .gt (.lit (.int ['5']))) (.cmp .lt (.field ['a']) (.lit (.int ['3']))))
    (writes_of (by krfl))]
  rfl

example : parseExpression j!"a + b * 2" none
    = .success (.arith .add (.field (some ['a'])) (.arith .mul (.field (some ['b'])) (.unary .integer (.int 2)))) := by
  rw [C65_arithmetic (e := .op .add (.field ['a']) (.op .mul (.field ['b']) (.lit (.int ['2'])))) (writesArith_of (by krfl))]
  rfl

/-! ## C66 A value may be written in place of a field -/

/-- The data hold the value of the literal `l` for every field that `σ` replaces by `l`, and `l` is a literal. -/
def Spec.Describes (σ : JStr → Option Lit) (d : Data) : Prop :=
  ∀ f l, σ f = some l → l.Valid ∧ ∃ ks, Names f ks ∧ Reaches d ks l.value

/-- **C66**, conditions: writing the value of a field as a literal in place of the field, for any number of fields,
changes no result. -/
theorem C66_condition {s s' : JStr} {c : Cond} {σ : JStr → Option Lit} (h : Writes s c) {d : Data} (hσ : Describes σ d)
    (hs : Renders (c.inline σ).lexemes s') (env : Env) {df : Option JStr} (hdf : DefaultOk df) :
    evaluate env s' d df = evaluate env s d df := by
  have hv : ∀ f l, σ f = some l → getValueFromMap f d = .ok (some l.value) := by
    intro f l hf
    obtain ⟨_, ks, hn, hr⟩ := hσ f l hf
    exact (lookup_some hn d _).mpr hr
  rw [(h.inline (fun f l hf => (hσ f l hf).1) hs).eval env d hdf, h.eval env d hdf, cinline_meaning hv]

/-- **C66**, arithmetic expressions. -/
theorem C66_arithmetic {s s' : JStr} {e : Arith} {σ : JStr → Option Lit} (h : WritesArith s e) {d : Data}
    (hσ : Describes σ d) (hs : Renders (e.inline σ).lexemes s') (env : Env) :
    evaluateArith env s' d = evaluateArith env s d := by
  have hv : ∀ f l, σ f = some l → getValueFromMap f d = .ok (some l.value) := by
    intro f l hf
    obtain ⟨_, ks, hn, hr⟩ := hσ f l hf
    exact (lookup_some hn d _).mpr hr
  rw [(h.inline (fun f l hf => (hσ f l hf).1) hs).eval env d, h.eval env d, inline_value hv]

/-- With `limit` 10, whatever the data say about `a` and the rest. -/
example (env : Env) (rest : Data) :
    evaluate env j!"a >= 10 AND NOT a IN (3, 10)" ((j!"limit", .int 10) :: rest) none
      = evaluate env j!"a >= limit AND NOT a IN (3, limit)" ((j!"limit", .int 10) :: rest) none :=
  C66_condition (c := .conn true (.cmp .ge (.field ['a']) (.field j!"limit"))
      (.not (.isIn ['a'] false [.lit (.int ['3']), .field j!"limit"])))
    (σ := fun f => if f = j!"limit" then some (.int j!"10") else none) (writes_of (by krfl))
    (by
      intro f l hf
      simp only at hf
      split at hf
      · rename_i hf'
        cases hf
        exact ⟨by decide +kernel, [j!"limit"], ⟨⟨by simp, by decide, by simp⟩, 0, by rw [hf']; rfl⟩,
          .leaf ⟨[], rest, rfl, by simp⟩ (by simp [Lit.value, digitsValue])⟩
      · cases hf)
    (renders_of (by krfl)) env noDefault

/-! ## C67 Polynomials over the whole numbers -/

theorem whole_of_int {ds : JStr} (h : (Lit.int ds).Valid) : Whole (Lit.int ds).value (digitsValue ds) := by
  obtain ⟨_, h2⟩ := h
  rw [Lit.value]
  split
  · exact .int (by unfold InInt32; omega)
  · exact .long (by unfold InInt64; omega)

theorem wrap64_sum (a b : ℤ) : wrap64 (wrap64 a + wrap64 b) = wrap64 (a + b) := by unfold wrap64; omega

theorem wrap64_product (a b : ℤ) : wrap64 (wrap64 a * wrap64 b) = wrap64 (a * b) :=
  (wrapped64_eq ⟨wrap64_in _, (wrapped64 _).2.trans ((wrapped64 a).2.mul (wrapped64 b).2)⟩)

theorem polynomial_value {ρ : JStr → ℤ} (env : Env) {d : Data} : (e : Arith) → e.Valid → e.Polynomial →
    (∀ f ∈ e.fields, ∃ v, Arith.fieldValue f d = .ok v ∧ Whole v (ρ f)) →
    ∃ v, e.value env d = .ok v ∧ Whole v (wrap64 (e.integer ρ)) ∧
      (e.isOperation = true → v = wholeValue (wrap64 (e.integer ρ)))
  | .field f, _, _, h => by
    obtain ⟨v, hv, hw⟩ := h f (by simp [Arith.fields])
    have : wrap64 (ρ f) = ρ f := wrap64_of_in (by cases hw with
      | int h => unfold InInt32 at h; unfold InInt64; omega
      | long h => exact h)
    exact ⟨v, by rw [Arith.value]; exact hv, by rw [Arith.integer, this]; exact hw, by simp [Arith.isOperation]⟩
  | .lit (.int ds), hv, _, _ => by
    have hv' : (Lit.int ds).Valid := hv
    refine ⟨_, by rw [Arith.value], ?_, by simp [Arith.isOperation]⟩
    rw [Arith.integer, wrap64_of_in (by have := hv'.2; unfold InInt64; omega)]
    exact whole_of_int hv'
  | .group e, hv, hp, h => by
    obtain ⟨v, h1, h2, h3⟩ := polynomial_value env e hv hp (by simpa [Arith.fields] using h)
    exact ⟨v, by rw [Arith.value]; exact h1, h2, fun hi => h3 (by simpa [Arith.isOperation] using hi)⟩
  | .op .add l r, hv, hp, h => by
    obtain ⟨a, ha, wa, _⟩ := polynomial_value env l hv.1 hp.1 (fun f hf => h f (by simp [Arith.fields, hf]))
    obtain ⟨b, hb, wb, _⟩ := polynomial_value env r hv.2 hp.2 (fun f hf => h f (by simp [Arith.fields, hf]))
    refine ⟨wholeValue (wrap64 (l.integer ρ + r.integer ρ)), ?_, (C18_wholeValue (wrap64_in _)).1, fun _ => rfl⟩
    rw [Arith.value, ha, ok_bind, hb, ok_bind, apply_add_whole env wa wb, wrap64_sum]
  | .op .mul l r, hv, hp, h => by
    obtain ⟨a, ha, wa, _⟩ := polynomial_value env l hv.1 hp.1 (fun f hf => h f (by simp [Arith.fields, hf]))
    obtain ⟨b, hb, wb, _⟩ := polynomial_value env r hv.2 hp.2 (fun f hf => h f (by simp [Arith.fields, hf]))
    refine ⟨wholeValue (wrap64 (l.integer ρ * r.integer ρ)), ?_, (C18_wholeValue (wrap64_in _)).1, fun _ => rfl⟩
    rw [Arith.value, ha, ok_bind, hb, ok_bind, apply_mul_whole env wa wb, wrap64_product]

theorem polynomial_operation : (e : Arith) → e.Polynomial → e.isAtom = false → ∀ {b}, e.readable b = true →
    e.isOperation = true
  | .field _, _, h, _, _ => by simp [Arith.isAtom] at h
  | .lit _, _, h, _, _ => by simp [Arith.isAtom] at h
  | .group e, hp, _, _, hr => by
    simp only [Arith.readable, Bool.and_eq_true, Bool.not_eq_true'] at hr
    simpa [Arith.isOperation] using polynomial_operation e hp hr.1 hr.2
  | .op _ _ _, _, _, _, _ => rfl
  | .neg _, hp, _, _, _ => hp.elim
  | .call _ _, hp, _, _, _ => hp.elim

/-- **C67.** Fields holding whole numbers and whole number literals, combined with `+`, `*` and parentheses in any
way, give the mathematical value of the expression if that fits 64 bits, even if intermediate results do not, and
otherwise the 64-bit two's complement number for it. -/
theorem C67_polynomial {s : JStr} {e : Arith} (h : WritesArith s e) (hp : e.Polynomial) {d : Data} {ρ : JStr → ℤ}
    (hd : HoldsWhole d e ρ) (env : Env) :
    (InInt64 (e.integer ρ) → evaluateArith env s d = .success (wholeValue (e.integer ρ))) ∧
    ∃ k, Wrapped64 k (e.integer ρ) ∧ evaluateArith env s d = .success (wholeValue k) := by
  obtain ⟨v, h1, _, h3⟩ := polynomial_value (ρ := ρ) env e h.valid hp (fun f hf => by
    obtain ⟨ks, v, hn, hr, hw⟩ := hd f hf
    exact ⟨v, fieldValue_reaches hn hr, hw⟩)
  rw [h.eval env d, h1, h3 (polynomial_operation e hp h.compound h.readable)]
  exact ⟨fun hin => by rw [wrap64_of_in hin]; rfl, _, wrapped64 _, rfl⟩

/-- **C67**: two such expressions that are equal as integers give equal results, overflow or not. In particular the
operands of `+` and of `*` may be exchanged and regrouped, and factors may be multiplied out. -/
theorem C67_equal {s s' : JStr} {e e' : Arith} (h : WritesArith s e) (h' : WritesArith s' e') (hp : e.Polynomial)
    (hp' : e'.Polynomial) {d : Data} {ρ : JStr → ℤ} (hd : HoldsWhole d e ρ) (hd' : HoldsWhole d e' ρ)
    (heq : e.integer ρ = e'.integer ρ) (env : Env) : evaluateArith env s d = evaluateArith env s' d := by
  obtain ⟨_, k, hk, h1⟩ := C67_polynomial h hp hd env
  obtain ⟨_, k', hk', h2⟩ := C67_polynomial h' hp' hd' env
  rw [h1, h2, wrapped64_eq hk, wrapped64_eq hk', heq]

/-- Multiplying out, for all whole numbers. -/
example (env : Env) {a b c : Value} {m n k : ℤ} (ha : Whole a m) (hb : Whole b n) (hc : Whole c k) :
    evaluateArith env j!"a * (b + c)" [(['a'], a), (['b'], b), (['c'], c)]
      = evaluateArith env j!"c * a + a * b" [(['a'], a), (['b'], b), (['c'], c)] := by
  have nn : ∀ {v : Value} {n : ℤ}, Whole v n → v ≠ .null := by intro v n h hv; subst hv; cases h
  have name : ∀ c : Char, c ≠ '.' → Names [c] [[c]] := fun c hc => ⟨⟨by simp, by simpa using Ne.symm hc, by simp⟩, 0, rfl⟩
  have hr : ∀ f ∈ [['a'], ['b'], ['c']], ∃ ks v, Names f ks ∧ Reaches [(['a'], a), (['b'], b), (['c'], c)] ks v ∧
      Whole v ((fun f => if f = ['a'] then m else if f = ['b'] then n else k) f) := by
    intro f hf
    simp only [List.mem_cons, List.not_mem_nil, or_false] at hf
    rcases hf with rfl | rfl | rfl
    · exact ⟨_, a, name 'a' (by decide), .leaf ⟨[], _, rfl, by simp⟩ (nn ha), ha⟩
    · exact ⟨_, b, name 'b' (by decide), .leaf ⟨[(['a'], a)], _, rfl, by simp⟩ (nn hb), hb⟩
    · exact ⟨_, c, name 'c' (by decide), .leaf ⟨[(['a'], a), (['b'], b)], _, rfl, by simp⟩ (nn hc), hc⟩
  refine C67_equal (e := .op .mul (.field ['a']) (.group (.op .add (.field ['b']) (.field ['c']))))
    (e' := .op .add (.op .mul (.field ['c']) (.field ['a'])) (.op .mul (.field ['a']) (.field ['b'])))
    (writesArith_of (by krfl)) (writesArith_of (by krfl)) ⟨trivial, trivial, trivial⟩
    ⟨⟨trivial, trivial⟩, trivial, trivial⟩ (ρ := fun f => if f = ['a'] then m else if f = ['b'] then n else k)
    (fun f hf => hr f (by simp [Arith.fields] at hf ⊢; tauto))
    (fun f hf => hr f (by simp [Arith.fields] at hf ⊢; tauto)) ?_ env
  simp [Arith.integer]; ring

end BoolParser
