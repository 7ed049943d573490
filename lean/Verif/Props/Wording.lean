import Verif.Lemmas.WordingTold
import Verif.Lemmas.VerbatimTold
import Verif.Lemmas.Checker
import Verif.Util.KRfl
/-!
# What a failure says (C101)
-/

namespace BoolParser
open Spec

/-- **C101.** The evaluators with messages are the evaluators: forgetting the messages gives the outcomes that all other
theorems speak of, for any text. -/
theorem C101_same (env : Env) (s : JStr) (d : Data) (df : Option JStr) :
    untold (evaluateTold env s d df) = evaluateAny env s d df ∧
    untold (evaluateArithTold env s d) = evaluateArithAny env s d := by
  constructor
  · unfold evaluateTold evaluateAny
    rw [untold_bind, parseTold_same]
    simp only [evalBoolX_same]
  · unfold evaluateArithTold evaluateArithAny
    rw [untold_bind, parseTold_same]
    simp only [evalArithX_same]

theorem told_node {env : Env} {s : JStr} {d : Data} {df : Option JStr} {n : Node} (h : parseAny s df = .ok n) :
    evaluateTold env s d df = evalBoolX env d n := by
  unfold evaluateTold; rw [parseTold_ok h]; rfl

theorem toldArith_node {env : Env} {s : JStr} {d : Data} {n : Node} (h : parseAny s none = .ok n) :
    evaluateArithTold env s d = evalArithX env d n := by
  unfold evaluateArithTold; rw [parseTold_ok h]; rfl

/-- **C101.** The message of a calculation: it is the one that the rules of `Arith.Complains` give, and there is one
exactly if they give one. -/
theorem C101_calculation {s : JStr} {e : Arith} (h : WritesArith s e) (env : Env) (d : Data) (x : Exn) (t : JStr) :
    evaluateArithTold env s d = .error ⟨x, some t⟩ ↔ e.Complains env d x t := by
  rw [toldArith_node (ask_node (h.node none)), ← arith_node none e h.valid]
  exact arithX_says env d none e h.valid

/-- **C101.** The same for conditions. -/
theorem C101_condition {s : JStr} {c : Cond} (h : Writes s c) (env : Env) (d : Data) {df : Option JStr} (hdf : DefaultOk df)
    (x : Exn) (t : JStr) : evaluateTold env s d df = .error ⟨x, some t⟩ ↔ c.Complains env d df x t := by
  rw [told_node (ask_node (h.node df)), ← cond_node df c h.valid]
  exact condX_says env d df hdf c h.valid .nothing h.readable

/-- **C101.** Any text, well formed or not: a failure has a message of the library if and only if its exception is one of the
library's. -/
theorem C101_told {env : Env} {s : JStr} {d : Data} {df : Option JStr} {f : Fault}
    (hf : evaluateTold env s d df = .error f) : f.message.isSome = true ↔ OfLibrary f.exn :=
  (told_bind (parse_honest s df) fun n _ => told_evalBool env d n).out f hf

theorem C101_told_calculation {env : Env} {s : JStr} {d : Data} {f : Fault}
    (hf : evaluateArithTold env s d = .error f) : f.message.isSome = true ↔ OfLibrary f.exn :=
  (told_bind (parse_honest s none) fun n _ => told_evalArith env d n).out f hf

/-- **C101.** A calculation of two operands that have values speaks of the values and the operator only. -/
theorem C101_operator {s : JStr} {o : ArithOp} {l r : Arith} (h : WritesArith s (.op o l r)) {env : Env} {d : Data} {a b : Value}
    (ha : l.value env d = .ok a) (hb : r.value env d = .ok b) (x : Exn) (t : JStr) :
    evaluateArithTold env s d = .error ⟨x, some t⟩ ↔ x = .invalidDataType ∧ OperatorSays o a b t := by
  have key : ∀ {e : Arith}, e.Valid → ∀ {v}, e.value env d = .ok v → ¬ e.Complains env d x t := by
    intro e hv v he hc
    have := (arithX_says env d none e hv).2 hc
    have h2 := arith_eval env d none e hv
    rw [← evalArithX_same, show evalArithX env d (nodeOf none e.tree) = _ from this, he] at h2
    cases h2
  have hv := h.valid
  rw [Arith.Valid] at hv
  rw [C101_calculation h]
  constructor
  · intro hc
    cases hc with
    | left hc => exact absurd hc (key hv.1 ha)
    | right _ hc => exact absurd hc (key hv.2 hb)
    | op ha' hb' hc =>
      rw [ha] at ha'; cases ha'
      rw [hb] at hb'; cases hb'
      exact ⟨rfl, hc⟩
  · rintro ⟨rfl, hc⟩; exact .op ha hb hc

/-- **C101.** A right operand that the operator does not take is reported as the left one. -/
theorem C101_right_called_left {s : JStr} {o : ArithOp} {l r : Arith} (h : WritesArith s (.op o l r)) {env : Env} {d : Data}
    {a b : Value} (ha : l.value env d = .ok a) (hb : r.value env d = .ok b) (h1 : TakesOperand o a) (h2 : ¬ NotANumber a)
    (h3 : ¬ TakesOperand o b) : evaluateArithTold env s d =
      .error ⟨.invalidDataType, some (j!"Invalid left operand data type " ++ typeOf b ++ j!" for operator " ++ opText o)⟩ :=
  (C101_operator h ha hb _ _).2 ⟨rfl, .right h1 h2 h3⟩

theorem kind_refused (env : Env) (d : Data) (df : Option JStr) : (c : Cond) →
    evalArithX env d (c.node df) = .error ⟨.unsupportedToken, some (j!"Unsupported Token " ++ c.kindText)⟩
  | .cmp .. => by rw [Cond.node, evalArithX] <;> first | rfl | (intros; contradiction)
  | .cmpD .. => by rw [Cond.node, evalArithX] <;> first | rfl | (intros; contradiction)
  | .isNull .. => by rw [Cond.node, evalArithX] <;> first | rfl | (intros; contradiction)
  | .range .. => by rw [Cond.node, evalArithX] <;> first | rfl | (intros; contradiction)
  | .isIn _ true _ => by rw [Cond.node, if_pos rfl, evalArithX] <;> first | rfl | (intros; contradiction)
  | .isIn _ false _ => by rw [Cond.node, if_neg (by decide), evalArithX] <;> first | rfl | (intros; contradiction)
  | .contains .. => by rw [Cond.node, evalArithX] <;> first | rfl | (intros; contradiction)
  | .notField _ => by rw [Cond.node, evalArithX] <;> first | rfl | (intros; contradiction)
  | .not _ => by rw [Cond.node, evalArithX] <;> first | rfl | (intros; contradiction)
  | .group c => by rw [Cond.node, Cond.kindText]; exact kind_refused env d df c
  | .conn true _ _ => by rw [Cond.node, evalArithX] <;> first | rfl | (intros; contradiction)
  | .conn false _ _ => by rw [Cond.node, evalArithX] <;> first | rfl | (intros; contradiction)

/-- **C101.** The arithmetic evaluator given a condition says which kind of test it does not support, whatever the data. -/
theorem C101_unsupported {s : JStr} {c : Cond} (h : Writes s c) (env : Env) (d : Data) :
    evaluateArithTold env s d = .error ⟨.unsupportedToken, some (j!"Unsupported Token " ++ c.kindText)⟩ := by
  rw [toldArith_node (ask_node (h.node none))]
  exact kind_refused env d none c

/-! ## Cases -/

/-- A text that is not of the grammar, refused by the parser with a message; and one that makes it fail without. -/
example (env : Env) (d : Data) : evaluateTold env j!"a > (5" d none =
    .error ⟨.invalidExpression, some j!"Array does not support this expression (5<missing ')'>"⟩ := by rfl

example (env : Env) (d : Data) : ∃ f, evaluateTold env j!"a NOT 5)" d none = .error f ∧ f.message.isSome = false := by
  refine ⟨⟨.nullPointer, none⟩, by rfl, ?_⟩
  have h := C101_told (env := env) (s := j!"a NOT 5)") (d := d) (df := none) (f := ⟨.nullPointer, none⟩) (by rfl)
  exact Bool.eq_false_iff.2 fun hf => absurd (h.1 hf) (by decide)

example (env : Env) : ∃ f, evaluateArithTold env j!"a * 'x" [(j!"a", .str j!"y")] = .error f ∧ (f.message.isSome = true ↔ OfLibrary f.exn) := by
  refine ⟨_, by rfl, C101_told_calculation (env := env) (s := j!"a * 'x") (d := [(j!"a", .str j!"y")]) (by rfl)⟩

example (env : Env) (d : Data) : evaluateArithTold env j!"NOT (a > 5)" d =
    .error ⟨.unsupportedToken, some j!"Unsupported Token BOOLEAN"⟩ :=
  C101_unsupported (c := .not (.group (.cmp .gt (.field j!"a") (.lit (.int j!"5"))))) (writes_of (by krfl)) env d

example (env : Env) (d : Data) : evaluateArithTold env j!"(a IN (5, 6))" d =
    .error ⟨.unsupportedToken, some j!"Unsupported Token IN"⟩ :=
  C101_unsupported (c := .group (.isIn j!"a" false [.lit (.int j!"5"), .lit (.int j!"6")])) (writes_of (by krfl)) env d

/-- The wording does not depend on the day or the powers. -/
example (env : Env) : evaluateArithTold env j!"a * b" [(j!"a", .int 5), (j!"b", .str j!"x")] =
    .error ⟨.invalidDataType, some j!"Invalid left operand data type STRING for operator MULTIPLY"⟩ :=
  C101_right_called_left (o := .mul) (l := .field j!"a") (r := .field j!"b") (a := .int 5) (b := .str j!"x")
    (writesArith_of (by krfl)) (by rfl) (by rfl) rfl id (by intro h; cases h)

example (env : Env) : evaluateArithTold env j!"sum(a, b)" [(j!"a", .int 5), (j!"b", .dbl j!"NaN")] =
    .error ⟨.invalidDataType, some j!"Validation failed for the function SUM for the operand NaN"⟩ := by
  rfl

/-- A text against a number, in the left part of AND. -/
example (env : Env) : evaluateTold env j!"a > 5 AND b = 3" [(j!"a", .str j!"x")] none =
    .error ⟨.invalidDataType, some j!"Incompatible data types STRING and INTEGER"⟩ :=
  (C101_condition (c := .conn true (.cmp .gt (.field j!"a") (.lit (.int j!"5"))) (.cmp .eq (.field j!"b") (.lit (.int j!"3"))))
    (writes_of (by krfl)) env _ noDefault _ _).2
    (.connLeft (.cmp (a := .str j!"x") (b := .int 5) (by rfl) (by rfl)
      (.leftText (by decide) (by decide +kernel) (by decide) (by decide +kernel) (by decide) (by rfl))))

/-- The right part of OR is looked at when the left one is false. -/
example (env : Env) : evaluateTold env j!"a = 5 OR b > 3" [(j!"a", .int 4)] none =
    .error ⟨.dataNotFound, some j!"Data not found for the key b"⟩ :=
  (C101_condition (c := .conn false (.cmp .eq (.field j!"a") (.lit (.int j!"5"))) (.cmp .gt (.field j!"b") (.lit (.int j!"3"))))
    (writes_of (by krfl)) env _ noDefault _ _).2
    (.connRight (by rfl) (.left (.given (.field (absent_iff.2 (by rfl))))))

/-- Truth values are not ordered. -/
example (env : Env) : evaluateTold env j!"a >= b" [(j!"a", .int 4), (j!"b", .bool true)] none =
    .error ⟨.invalidDataType, some j!"Invalid right operand data type BOOLEAN for operator GREATER_THAN_EQUAL"⟩ :=
  (C101_condition (c := .cmp .ge (.field j!"a") (.field j!"b")) (writes_of (by krfl)) env _ noDefault _ _).2
    (.cmp (a := .int 4) (b := .bool true) (by rfl) (by rfl) (.right (by decide) (by decide) id rfl))

/-- CONTAINS of a value that is no list. -/
example (env : Env) : evaluateTold env j!"a CONTAINS_ANY (1, 2)" [(j!"a", .int 4)] none =
    .error ⟨.invalidDataType, some j!"Validation failed for the operator CONTAINS_ANY for the operand 4"⟩ :=
  (C101_condition (c := .contains j!"a" .containsAny [.lit (.int j!"1"), .lit (.int j!"2")]) (writes_of (by krfl)) env _
    noDefault _ _).2
    (.noList (v := .int 4) (ws := [.int 1, .int 2]) (by rfl) ⟨[.int 1, .int 2], by rfl, by rfl⟩ (by decide) (fun _ h => by cases h)
      (fun _ h => by cases h) (fun _ _ h => by cases h))

/-- No message of the library: the right operand is missing. -/
example (env : Env) : evaluateTold env j!"5 > b" [] none = .error ⟨.noSuchElement, none⟩ ∧
    ¬ OfLibrary .noSuchElement := by
  have h : Writes j!"5 > b" (.cmp .gt (.lit (.int j!"5")) (.field j!"b")) := writes_of (by krfl)
  exact ⟨by rw [told_node (ask_node (h.node none))]; rfl, by decide⟩

end BoolParser
