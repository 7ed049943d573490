import Verif.Lemmas.Wrapped
import Verif.Lemmas.Checker
import Verif.Util.KRfl
/-!
# C100: `EvaluatedNode` objects in the data
-/

namespace BoolParser
open Spec

/-- **C100**: without such objects in the data the evaluators are those of the other claims, for every text. -/
theorem C100_none {W : Wraps} (hW : ∀ t, W t = none) (env : Env) (s : JStr) (d : Data) (df : Option JStr) :
    evaluateW W env s d df = evaluate env s d df ∧ evaluateArithW W env s d = evaluateArith env s d := by
  have h1 : evalBoolW W env d = evalBool env d := funext (boolW_plain hW env d)
  have h2 : evalArithW W env d = evalArith env d := funext (arithW_plain hW env d)
  rw [evaluateW, evaluate, evaluateArithW, evaluateArith, h1, h2]
  exact ⟨rfl, rfl⟩

/-- **C100**: as an operand such an object is what it holds: a calculation without functions has the value it has over
data with the contents in place of the objects. -/
theorem C100_operand {s : JStr} {e : Arith} (h : WritesArith s e) (hc : e.callFree = true) {W : Wraps} (hW : Honest W)
    {d d' : Data} (hd : Unwrapped W e.fields d d') (env : Env) :
    evaluateArithW W env s d = evaluateArith env s d' := by
  rw [h.eval, value_opened hW env e hc (opened_of (names_of_valid e h.valid) hd), evaluateArithW, h.node]
  rw [opened_known (operation_known hc h.readable h.compound)]
  rfl

/-- **C100**: the data type it claims counts, not the one of what it holds. -/
theorem C100_claimed {s : JStr} {o : ArithOp} {f g : JStr} (h : WritesArith s (.op o (.field f) (.field g))) {W : Wraps}
    {d : Data} {t t' : JStr} {a b : DataType} {x y : Value} (hf : Found d f (.other t))
    (hg : Found d g (.other t')) (hx : W t = some (a, x)) (hy : W t' = some (b, y)) (env : Env) :
    evaluateArithW W env s d = .ofResult (arithBinary env o x a y b) := by
  rw [evaluateArithW, h.node, Outcome.andThen, Arith.node, evalArithW, Arith.node, Arith.node, evalArithW, evalArithW,
    require_have (found_lookup hf), require_have (found_lookup hg), ok_bind, ok_bind]
  simp only [Wraps.typed, Wraps.held, hx, hy]

/-- **C100**: a function of fields gets such an object twice: what it holds, and the object. -/
theorem C100_twice {s : JStr} {f : FuncType} {fs : List JStr} (h : WritesArith s (.call f (fs.map .field))) {W : Wraps}
    (hW : Honest W) {d : Data} {vs : List Value} (hd : Have d fs vs) (env : Env) :
    evaluateArithW W env s d = .ofResult (callFn env f (flattenItems (vs.flatMap (counted W)))) := by
  rw [evaluateArithW, h.node, Outcome.andThen, Arith.node, evalArithW, arithAllW_have fs vs hd, ok_bind,
    flattenW_counted hW]

/-- **C100**: so no function but LEN gives a result, whatever the other arguments and whatever the object holds. -/
theorem C100_function {s : JStr} {f : FuncType} {args : List Arith} (h : WritesArith s (.call f args)) (hf : f ≠ .len)
    {g : JStr} (hg : .field g ∈ args) {W : Wraps} {d : Data} {t : JStr}
    (hd : Found d g (.other t)) (env : Env) :
    ∃ x, evaluateArithW W env s d = .failure x := by
  rw [evaluateArithW, h.node, Outcome.andThen, Arith.node, evalArithW]
  cases hv : evalArithAllW W env d (Arith.nodes args) with
  | error x => exact ⟨x, rfl⟩
  | ok vs =>
    obtain ⟨x, hx⟩ := callFn_object (env := env) hf (object_mem (W := W) vs (arithAllW_mem (found_lookup hd) args hg vs hv))
    rw [ok_bind, hx]
    exact ⟨x, rfl⟩

/-- **C100**: a list of fields has what such an object holds, and the object, among its items. -/
theorem C100_in {s : JStr} {f : JStr} {neg : Bool} {fs : List JStr} (h : Writes s (.isIn f neg (fs.map .field)))
    {W : Wraps} (hW : Honest W) {d : Data} {v : Value} (hv : Found d f v) {vs : List Value}
    (hd : Have d fs vs) (env : Env) (df : Option JStr) :
    evaluateW W env s d df = .ofResult (do
      let b ← Cond.member v (vs.flatMap (counted W))
      pure (b != neg)) := by
  have key : evalBoolW W env d (.inn f (Arith.nodes (fs.map .field))) = Cond.member v (vs.flatMap (counted W)) := by
    rw [evalBoolW, require_have (found_lookup hv), ok_bind, itemsW_have fs vs hd, ok_bind, flattenW_counted hW]
    rfl
  rw [evaluateW, h.node, Outcome.andThen, Cond.node]
  cases neg
  · simp only [Bool.false_eq_true, if_false]
    rw [key]
    cases Cond.member v (vs.flatMap (counted W)) with
    | error e => rfl
    | ok b => cases b <;> rfl
  · simp only [if_true]
    rw [evalBoolW, key]
    cases Cond.member v (vs.flatMap (counted W)) with
    | error e => rfl
    | ok b => cases b <;> rfl

/-- **C100**: the same for CONTAINS_ALL and CONTAINS_ANY. -/
theorem C100_contains {s : JStr} {f : JStr} {o : ArrOp} {fs : List JStr} (h : Writes s (.contains f o (fs.map .field)))
    {W : Wraps} (hW : Honest W) {d : Data} {v : Value} (hv : Found d f v) {vs : List Value}
    (hd : Have d fs vs) (env : Env) (df : Option JStr) :
    evaluateW W env s d df = .ofResult (Cond.containsTest o v (vs.flatMap (counted W))) := by
  rw [evaluateW, h.node, Outcome.andThen, Cond.node, evalBoolW, require_have (found_lookup hv), ok_bind, itemsW_have fs vs hd, ok_bind,
    flattenW_counted hW, hetero_eq]
  rfl

/-- **C100**: conditions without lists and functions look into such objects only where something is calculated: they are
answered as over data with the contents in place of the objects for the operands of calculations, and the objects themselves
where a field is compared as it is. -/
theorem C100_condition {s : JStr} {c : Cond} (h : Writes s c) (hc : c.callFree = true) {W : Wraps} (hW : Honest W)
    {d d' : Data} {df : Option JStr} (hdn : ∀ f, df = some f → IsName f) (h1 : Unwrapped W c.calculated d d')
    (h2 : ∀ f ∈ c.direct df, AgreeOn f d' d) (env : Env) :
    evaluateW W env s d df = evaluate env s d' df := by
  rw [evaluateW, evaluate, h.node, Outcome.andThen, Outcome.andThen,
    cond_same hW c h.valid .nothing h.readable hc (opened_of (fun f hf => (ccalculated_fields df c f hf).2 h.valid) h1) (by
      intro f hf
      have hn : IsName f := (cond_names c h.valid f (cdirect_fields df c f hf)).elim id (hdn f)
      obtain ⟨ks, hk⟩ := isName_names hn
      exact lookup_agree hk (h2 f hf))]

/-- One `EvaluatedNode`, holding 5. -/
def fiveW : Wraps := fun t => if t = j!"EvaluatedNode@1" then some (.integer, .int 5) else none

theorem five_honest : Honest fiveW := by
  intro t dt x h
  rw [fiveW] at h
  split at h
  · cases h; rfl
  · cases h

-- `f * 2 + 1` is 11
example (env : Env) : evaluateArithW fiveW env j!"f * 2 + 1" [(['f'], .other j!"EvaluatedNode@1")] = .success (.int 11) := by
  rw [C100_operand (e := .op .add (.op .mul (.field ['f']) (.lit (.int ['2']))) (.lit (.int ['1']))) (writesArith_of (by krfl))
    rfl five_honest (d' := [(['f'], .int 5)]) (unwrapped_one (v := .other j!"EvaluatedNode@1") rfl rfl)]
  krfl

-- a text declared to be a number is one: `f + g` is 12
example (env : Env) : evaluateArithW (fun t => if t = ['x'] then some (.integer, .str ['5']) else some (.integer, .int 7)) env
    j!"f + g" [(['f'], .other ['x']), (['g'], .other ['y'])] = .success (.int 12) := by
  rw [C100_claimed (f := ['f']) (g := ['g']) (o := .add) (t := ['x']) (t' := ['y']) (a := .integer) (b := .integer)
    (x := .str ['5']) (y := .int 7) (writesArith_of (by krfl)) (found_of (by decide) rfl) (found_of (by decide) rfl) rfl rfl]
  krfl

-- LEN counts it twice
example (env : Env) : evaluateArithW fiveW env j!"len(f)" [(['f'], .other j!"EvaluatedNode@1")] = .success (.int 2) := by
  rw [C100_twice (f := .len) (fs := [['f']]) (vs := [.other j!"EvaluatedNode@1"]) (writesArith_of (by krfl)) five_honest
    ⟨found_of (by decide) rfl, trivial⟩]
  krfl

example (env : Env) : ∃ x, evaluateArithW fiveW env j!"max(f, 3)" [(['f'], .other j!"EvaluatedNode@1")] = .failure x :=
  C100_function (f := .max) (args := [.field ['f'], .lit (.int ['3'])]) (writesArith_of (by krfl)) (by decide)
    (g := ['f']) (by simp) (found_of (by decide) rfl) env

-- `a IN (f)` holds for 5
example (env : Env) : evaluateW fiveW env j!"a IN (f)" [(['a'], .int 5), (['f'], .other j!"EvaluatedNode@1")] none =
    .success true := by
  rw [C100_in (f := ['a']) (neg := false) (fs := [['f']]) (vs := [.other j!"EvaluatedNode@1"]) (v := .int 5)
    (writes_of (by krfl)) five_honest (found_of (by decide) rfl) ⟨found_of (by decide) rfl, trivial⟩]
  krfl

-- the object is a text and what it holds is not: the items are of two types
example (env : Env) : evaluateW fiveW env j!"a CONTAINS_ANY (f)" [(['a'], .list [.int 5]), (['f'], .other j!"EvaluatedNode@1")]
    none = .failure .heterogeneousArray := by
  rw [C100_contains (f := ['a']) (o := .containsAny) (fs := [['f']]) (vs := [.other j!"EvaluatedNode@1"]) (v := .list [.int 5])
    (writes_of (by krfl)) five_honest (found_of (by decide) rfl) ⟨found_of (by decide) rfl, trivial⟩]
  krfl

-- `f = 5` does not hold, `f + 0 = 5` does
example (env : Env) : evaluateW fiveW env j!"f = 5" [(['f'], .other j!"EvaluatedNode@1")] none = .success false := by
  rw [C100_condition (c := .cmp .eq (.field ['f']) (.lit (.int ['5']))) (d' := [(['f'], .other j!"EvaluatedNode@1")])
    (writes_of (by krfl)) rfl five_honest (by intro f hf; cases hf) (by intro f hf; cases hf)
    (fun _ _ _ _ _ => Iff.rfl)]
  krfl

example (env : Env) : evaluateW fiveW env j!"(f + 0) = 5" [(['f'], .other j!"EvaluatedNode@1")] none = .success true := by
  rw [C100_condition (c := .cmp .eq (.group (.op .add (.field ['f']) (.lit (.int ['0'])))) (.lit (.int ['5'])))
    (d' := [(['f'], .int 5)]) (writes_of (by krfl)) rfl five_honest (by intro f hf; cases hf)
    (unwrapped_one (v := .other j!"EvaluatedNode@1") rfl rfl) (by intro f hf; cases hf)]
  krfl

end BoolParser
