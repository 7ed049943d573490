import Verif.Lemmas.CauseTexts
import Verif.Props.Failures
/-!
# What every failure needs

C79 every exception of an evaluation has a cause in the text or in the data. `Spec/Causes.lean` has the table: for
each exception what must be in the text (given by its lexemes, `Cut s ts`) or in the data. C64 is about the texts that
are refused before any data are looked at; here the text has been accepted.
-/

namespace BoolParser
open Spec

variable {s : JStr} {ts : List JStr} {df : Option JStr} {d : Data} {env : Env}

/-- **C79.** If the evaluation of a condition fails, and not because the text is refused whatever the data, then the
text or the data contain the cause of that exception. -/
theorem C79_condition (h : Cut s ts) {e : Exn} (he : evaluate env s d df = .failure e) :
    parseExpression s df = .failure e ∨ Cause ts df d false e := evaluate_cause h he

/-- **C79**, arithmetic evaluator. -/
theorem C79_arithmetic (h : Cut s ts) {e : Exn} (he : evaluateArith env s d = .failure e) :
    parseExpression s none = .failure e ∨ Cause ts none d true e := evaluateArith_cause h he

/-- Failures that are never refusals. -/
theorem not_refused (h : Cut s ts) {e : Exn} (he : e ≠ .invalidExpression ∧ e ≠ .emptyStack ∧ e ≠ .classCast ∧ e ≠ .numberFormat)
    (df : Option JStr) : parseExpression s df ≠ .failure e := by
  intro hp
  rcases C64_refusals h hp with rfl | rfl | rfl | ⟨rfl, _⟩
  · exact he.1 rfl
  · exact he.2.1 rfl
  · exact he.2.2.1 rfl
  · exact he.2.2.2 rfl

/-! ### The same, exception by exception -/

/-- **C79**: a null pointer in a condition comes from a null inside a list or collection of the data, from a date in
the text that is none, or from an operand left out without a default field. -/
theorem C79_null_pointer (h : Cut s ts) (h1 : ¬ NullElement d) (h2 : ∀ t ∈ ts, ¬ BadDate t) (h3 : df ≠ none ∨ ¬ OmitsOperand ts) :
    evaluate env s d df ≠ .failure .nullPointer := by
  intro he
  rcases (C79_condition h he).resolve_left (not_refused h (by decide) _) with hc | ⟨t, ht, hc⟩ | ⟨hd, ho⟩
  · exact h1 hc
  · exact h2 t ht hc
  · rcases h3 with h3 | h3
    · exact h3 hd
    · exact h3 ho

/-- **C79**: the same for the arithmetic evaluator. -/
theorem C79_null_pointer_arith (h : Cut s ts) (h1 : ¬ NullElement d) (h2 : ∀ t ∈ ts, ¬ BadDate t) (h3 : ¬ OmitsOperand ts) :
    evaluateArith env s d ≠ .failure .nullPointer := by
  intro he
  rcases (C79_arithmetic h he).resolve_left (not_refused h (by decide) _) with hc | ⟨t, ht, hc⟩ | ⟨hd, ho⟩
  · exact h1 hc
  · exact h2 t ht hc
  · exact h3 ho

/-- **C79**: without division, remainder and the functions other than INT, LEN and DAYS_ELAPSED there is no arithmetic
exception, in either evaluator. -/
theorem C79_no_division (h : Cut s ts) (h1 : ¬ Uses ts (.arith .div)) (h2 : ¬ Uses ts (.arith .mod))
    (h3 : ∀ f, Uses ts (.fn f) → f = .int ∨ f = .len ∨ f = .daysElapsed) :
    evaluate env s d df ≠ .failure .arithmetic ∧ evaluateArith env s d ≠ .failure .arithmetic := by
  have key : ∀ df a, ¬ Cause ts df d a .arithmetic := by
    rintro df a (hc | hc | ⟨f, ha, hb, hc, hf⟩)
    · exact h1 hc
    · exact h2 hc
    · rcases h3 f hf with h | h | h
      · exact ha h
      · exact hb h
      · exact hc h
  exact ⟨fun he => key _ _ ((C79_condition h he).resolve_left (not_refused h (by decide) _)),
    fun he => key _ _ ((C79_arithmetic h he).resolve_left (not_refused h (by decide) _))⟩

/-- **C79**: a condition fails with "no such element" only if it compares and a field named in the text, or the default
field standing for an omitted operand, is missing; for data of Java values and texts without LEN and DAYS_ELAPSED. -/
theorem C79_no_such_element (h : Cut s ts) (hd : EntriesInRange d) (hl : ¬ Uses ts (.fn .len))
    (hl' : ¬ Uses ts (.fn .daysElapsed)) (he : evaluate env s d df = .failure .noSuchElement) :
    (∃ o, Uses ts (.cmp o)) ∧ ∃ f, ((f ∈ ts ∧ Classified f .field) ∨ (df = some f ∧ OmitsOperand ts)) ∧ Absent d f := by
  rcases (C79_condition h he).resolve_left (not_refused h (by decide) _) with hc | hc | hc | hc
  · exact hc
  · exact absurd hd hc
  · exact absurd hc hl
  · exact absurd hc hl'

/-- **C79**: without Doubles and Floats, or without a minus, and without CONTAINS or collections other than lists, an
accepted text never fails with a class cast. -/
theorem C79_class_cast (h : Cut s ts) (h1 : ¬ HoldsDouble d ∨ ¬ Uses ts (.arith .sub)) (h2 : ¬ HoldsOther d ∨ ¬ UsesContains ts)
    (ha : parseExpression s df ≠ .failure .classCast) : evaluate env s d df ≠ .failure .classCast := by
  intro he
  rcases (C79_condition h he).resolve_left ha with ⟨hs, hf⟩ | ⟨hs, hf⟩
  · rcases h1 with h1 | h1
    · exact h1 hf
    · exact h1 hs
  · rcases h2 with h2 | h2
    · exact h2 hf
    · exact h2 hs

/-- **C79**: an accepted text without a power never fails with a number format, whatever the data. -/
theorem C79_number_format (h : Cut s ts) (h1 : ¬ Uses ts (.arith .exp)) (h2 : ∀ t ∈ ts, ¬ TooLarge t) :
    evaluate env s d df ≠ .failure .numberFormat ∧ evaluateArith env s d ≠ .failure .numberFormat :=
  ⟨fun he => h1 ((C79_condition h he).resolve_left (C64_numbers h h2 _)),
   fun he => h1 ((C79_arithmetic h he).resolve_left (C64_numbers h h2 _))⟩

/-- **C79**: an empty stack is always a refusal of the text; it does not depend on the data. -/
theorem C79_empty_stack (h : Cut s ts) (d' : Data) (env' : Env) (he : evaluate env s d df = .failure .emptyStack) :
    evaluate env' s d' df = .failure .emptyStack := by
  rcases C79_condition h he with hp | hp
  · rw [evaluate, hp]; rfl
  · exact hp.elim

/-- **C79**: an unsupported token in a condition needs both logic and arithmetic in the text. -/
theorem C79_unsupported (h : Cut s ts) (h1 : ¬ UsesArithmetic ts) : evaluate env s d df ≠ .failure .unsupportedToken := by
  intro he
  rcases (C79_condition h he).resolve_left (not_refused h (by decide) _) with ⟨_, h2 | h2⟩
  · cases h2
  · exact h1 h2

/-- **C79**: a formula without any logic is never unsupported, and never has unary operands of the wrong kind. -/
theorem C79_formula (h : Cut s ts) (h1 : ¬ UsesLogic ts) : evaluateArith env s d ≠ .failure .unsupportedToken ∧
    evaluateArith env s d ≠ .failure .invalidUnaryOperand ∧ evaluateArith env s d ≠ .failure .heterogeneousArray := by
  refine ⟨fun he => ?_, fun he => ?_, fun he => ?_⟩
  · exact h1 ((C79_arithmetic h he).resolve_left (not_refused h (by decide) _)).1
  · cases ((C79_arithmetic h he).resolve_left (not_refused h (by decide) _)).1
  · rcases (C79_arithmetic h he).resolve_left (not_refused h (by decide) _) with hc | hc
    · exact h1 (.inr (.inr (.inr (.inl hc))))
    · exact h1 (.inr (.inr (.inr (.inr (.inl hc)))))

/-- **C79**, all together: comparisons, ranges and IN joined by AND and OR, with a value for every name, data without
nulls in lists, no impossible dates in the text and nothing left out: the only thing that can go wrong with an accepted
text is a value that is not of the type it is compared with. -/
theorem C79_only_types (h : Cut s ts) (h1 : ¬ UsesArithmetic ts) (h2 : ¬ UsesContains ts) (h3 : ¬ UsesTruth ts)
    (h4 : ∀ t ∈ ts, ¬ BadDate t) (h5 : ¬ OmitsOperand ts) (h6 : ∀ f ∈ ts, Classified f .field → ¬ AllDots f ∧ ¬ Absent d f)
    (hd : EntriesInRange d) (hn : ¬ NullElement d) {e : Exn} (ha : parseExpression s none ≠ .failure e)
    (he : evaluate env s d none = .failure e) : e = .invalidDataType := by
  have noFn : ∀ f, ¬ Uses ts (.fn f) := fun f hf => h1 (.inr ⟨f, hf⟩)
  have noOp : ∀ o, ¬ Uses ts (.arith o) := fun o ho => h1 (.inl ⟨o, ho⟩)
  have hc := (C79_condition h he).resolve_left ha
  cases e with
  | invalidDataType => rfl
  | dataNotFound =>
    rcases C63_condition h he with ⟨f, hf | hf, hab⟩ | ⟨hn, _⟩
    · exact absurd hab (h6 f hf.1 hf.2).2
    · cases hf
    · refine absurd ?_ h3
      rcases hn with hn | hn | hn
      · exact .inl ⟨_, hn, .table (by decide +kernel)⟩
      · exact .inl ⟨_, hn, .table (by decide +kernel)⟩
      · exact .inr hn
  | nullPointer =>
    rcases hc with hc | ⟨t, ht, hc⟩ | ⟨_, hc⟩
    · exact absurd hc hn
    · exact absurd hc (h4 t ht)
    · exact absurd hc h5
  | noSuchElement =>
    rcases hc with ⟨_, f, hf | hf, hab⟩ | hc | hc | hc
    · exact absurd hab (h6 f hf.1 hf.2).2
    · cases hf.1
    · exact absurd hd hc
    · exact absurd hc (noFn _)
    · exact absurd hc (noFn _)
  | indexOutOfBounds =>
    rcases hc with ⟨f, hf | hf, hab⟩ | ⟨_, hc, _⟩
    · exact absurd hab (h6 f hf.1 hf.2).1
    · cases hf.1
    · exact absurd hc h3
  | arithmetic =>
    rcases hc with hc | hc | ⟨f, _, _, _, hc⟩
    · exact absurd hc (noOp _)
    · exact absurd hc (noOp _)
    · exact absurd hc (noFn _)
  | numberFormat => exact absurd hc (noOp _)
  | classCast =>
    rcases hc with ⟨hc, _⟩ | ⟨hc, _⟩
    · exact absurd hc (noOp _)
    · exact absurd hc h2
  | heterogeneousArray => exact absurd hc h2
  | invalidContainerType => obtain ⟨f, _, hc⟩ := hc; exact absurd hc (noFn _)
  | invalidFunctionArgument => exact absurd hc (noFn _)
  | invalidExpression => obtain ⟨⟨f, hc⟩, _⟩ := hc; exact absurd hc (noFn _)
  | invalidUnaryOperand => exact absurd hc.2 h3
  | unsupportedToken =>
    rcases hc.2 with hc | hc
    · cases hc
    · exact absurd hc h1
  | emptyStack => exact hc.elim

/-! ### Every exception of the table does occur -/

section
variable (env : Env)

-- a value of the wrong type
example : evaluate env j!"a > 'x'" [(j!"a", .int 5)] none = .failure .invalidDataType := by krfl
-- a null inside a list, a date that is none, an operand left out
example : evaluate env j!"a IN (b)" [(j!"a", .int 5), (j!"b", .list [.null])] none = .failure .nullPointer := by krfl
example : evaluate env j!"a > 2023-99-99" [(j!"a", .int 5)] none = .failure .nullPointer := by krfl
example : evaluate env j!"= 5" [(j!"a", .int 5)] none = .failure .nullPointer := by krfl
-- the right operand is missing
example : evaluate env j!"5 = b" [] none = .failure .noSuchElement := by krfl
-- a name made of dots, or a literal taken for one
example : evaluate env j!". = 5" [] none = .failure .indexOutOfBounds := by krfl
example : evaluate env j!"NOT '.'" [] none = .failure .indexOutOfBounds := by krfl
-- division, remainder, an average that does not come out even
example : evaluateArith env j!"a / 0" [(j!"a", .int 5)] = .failure .arithmetic := by krfl
example : evaluateArith env j!"a % 0" [(j!"a", .int 5)] = .failure .arithmetic := by krfl
example : evaluateArith env j!"AVG(1, 1, 2)" [] = .failure .arithmetic := by krfl
-- a minus before a Double, CONTAINS on a set
example : evaluateArith env j!"-a" [(j!"a", .dbl j!"1.5")] = .failure .classCast := by krfl
example : evaluate env j!"a CONTAINS_ALL (1)" [(j!"a", .coll [.int 5])] none = .failure .classCast := by krfl
-- a list of different types, one number for MIN, an empty list for MIN
example : evaluate env j!"a CONTAINS_ALL (1, 'x')" [(j!"a", .list [.int 5])] none = .failure .heterogeneousArray := by krfl
example : evaluateArith env j!"MIN(1)" [] = .failure .invalidContainerType := by krfl
example : evaluateArith env j!"MIN(a)" [(j!"a", .list [])] = .failure .invalidExpression := by krfl
-- February 30 is read as February 28 by the comparison of dates, DAYS_ELAPSED refuses it
example : evaluateArith env j!"DAYS_ELAPSED(a)" [(j!"a", .str j!"2023-02-30")] = .failure .invalidFunctionArgument := by krfl
-- a yes or no is expected
example : evaluate env j!"NOT 'a'" [(j!"a", .int 5)] none = .failure .invalidUnaryOperand := by krfl
-- a condition for the arithmetic evaluator, or inside arithmetic
example : evaluateArith env j!"a = 1" [(j!"a", .int 5)] = .failure .unsupportedToken := by krfl
example : evaluate env j!"5 = ((a = 1) + 2)" [(j!"a", .int 5)] none = .failure .unsupportedToken := by krfl
end

/-- The hypotheses of `C79_only_types` are met by `a > 5 OR b = 'x'`: it can fail for a type, and for nothing else. -/
example (env : Env) : evaluate env j!"a > 5 OR b = 'x'" [(j!"a", .str j!"y"), (j!"b", .int 3)] none = .failure .invalidDataType := by
  krfl
example (env : Env) (x y : JStr) {e : Exn}
    (he : evaluate env j!"a > 5 OR b = 'x'" [(j!"a", .str x), (j!"b", .str y)] none = .failure e) : e = .invalidDataType := by
  have hc : Cut j!"a > 5 OR b = 'x'" [j!"a", j!">", j!"5", j!"OR", j!"b", j!"=", j!"'x'"] := cut_of (by krfl)
  have uses : ∀ {k : TK}, k ∉ kindsOf (lex j!"a > 5 OR b = 'x'") → ¬ Uses _ k := fun h hu => h ((uses_iff hc).1 hu)
  refine C79_only_types (d := [(j!"a", .str x), (j!"b", .str y)]) hc ?_ ?_ ?_ ?_ ?_ ?_ ?_ ?_ ?_ he
  · rintro (⟨o, h⟩ | ⟨f, h⟩)
    · exact uses (by cases o <;> decide +kernel) h
    · exact uses (by cases f <;> decide +kernel) h
  · rintro (h | h) <;> exact uses (by decide +kernel) h
  · rintro (h | ⟨k, xs, hx, h⟩)
    · exact uses (by decide +kernel) h
    · cases k with
      | zero => have := congrArg List.length h; simp at this; omega
      | succ k => rw [List.replicate_succ] at h; cases h
  · rintro t ht (⟨h, _⟩ | ⟨h, _⟩)
    · exact uses (k := .date) (by decide +kernel) ⟨t, ht, .date h⟩
    · exact uses (k := .datetime) (by decide +kernel) ⟨t, ht, .datetime h⟩
  · exact fun h => absurd ((omits_iff hc).1 h) (by decide +kernel)
  · intro f hf hcl
    have hab : f = j!"a" ∨ f = j!"b" := by
      have := (field_iff hc).1 ⟨hf, hcl⟩
      revert this
      rw [show (lex j!"a > 5 OR b = 'x'").filter (fun t => t.kind = .field) = [⟨.field, j!"a"⟩, ⟨.field, j!"b"⟩] by krfl]
      simp
    constructor
    · rintro ⟨_, h⟩
      rcases hab with rfl | rfl
      · exact absurd (h 'a' (by simp)) (by decide)
      · exact absurd (h 'b' (by simp)) (by decide)
    · rintro (⟨ks, hk, hm⟩ | ⟨rfl, _⟩)
      · have := (lookup_none hk [(j!"a", .str x), (j!"b", .str y)]).2 hm
        rcases hab with rfl | rfl <;> cases this
      · rcases hab with h | h <;> cases h
  · simp [EntriesInRange, InRange]
  · have key : ∀ v, Stores [(j!"a", .str x), (j!"b", .str y)] v → ∃ z, v = .str z := by
      intro v h
      induction h with
      | entry h =>
        simp only [List.mem_cons, Prod.mk.injEq, List.not_mem_nil, or_false] at h
        rcases h with ⟨_, rfl⟩ | ⟨_, rfl⟩ <;> exact ⟨_, rfl⟩
      | inner _ _ ih | list _ _ ih | coll _ _ ih | arr _ _ ih => obtain ⟨z, hz⟩ := ih; cases hz
    rintro ⟨xs, _, h | h | ⟨b, h⟩⟩ <;> (obtain ⟨z, hz⟩ := key _ h; cases hz)
  · have ok : (match parseExpression j!"a > 5 OR b = 'x'" none with | .success _ => true | _ => false) = true := by krfl
    intro h; rw [h] at ok; cases ok

end BoolParser
