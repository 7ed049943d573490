import Verif.Lemmas.AnyCauses
import Verif.Lemmas.Patterns
import Verif.Props.AnyText
import Verif.Props.Recovery
/-!
# What every failure of any text needs

C93 every exception of the evaluation of any text, well-formed or not, has a cause in the text or in the data: one of
the causes it has in well-formed texts (C79, `Spec/Causes.lean`) or one of the few slips of malformed ones
(`Spec/AnyCauses.lean`).
-/

namespace BoolParser
open Spec

variable {s : JStr} {ts : List JStr} {df : Option JStr} {d : Data} {env : Env}

/-- **C93.** If the evaluation of any text as a condition fails, and not because the text is refused whatever the data,
then the text or the data contain the cause of that exception. -/
theorem C93_condition (h : Cut s ts) {e : Exn} (he : evaluateAny env s d df = .error e) :
    parseAny s df = .error e ∨ Cause ts df d false e ∨ Slip ts df d false e := evaluateAny_cause h he

/-- **C93**, arithmetic evaluator. -/
theorem C93_arithmetic (h : Cut s ts) {e : Exn} (he : evaluateArithAny env s d = .error e) :
    parseAny s none = .error e ∨ Cause ts none d true e ∨ Slip ts none d true e := evaluateArithAny_cause h he

/-- Failures that are never refusals. -/
theorem any_not_refused (h : Cut s ts) {e : Exn}
    (he : e ≠ .invalidExpression ∧ e ≠ .emptyStack ∧ e ≠ .classCast ∧ e ≠ .nullPointer ∧ e ≠ .numberFormat) (df : Option JStr) :
    parseAny s df ≠ .error e := by
  intro hp
  rcases C76_refusals h hp with rfl | rfl | rfl | rfl | ⟨rfl, _⟩
  · exact he.1 rfl
  · exact he.2.1 rfl
  · exact he.2.2.1 rfl
  · exact he.2.2.2.1 rfl
  · exact he.2.2.2.2 rfl

/-! ### The same, exception by exception -/

/-- **C93**: in any text, a division, a remainder or one of MIN, MAX, AVG, SUM, MEAN, MODE, MEDIAN is needed for an
arithmetic exception, in either evaluator. -/
theorem C93_no_division (h : Cut s ts) (h1 : ¬ Uses ts (.arith .div)) (h2 : ¬ Uses ts (.arith .mod))
    (h3 : ∀ f, Uses ts (.fn f) → f = .int ∨ f = .len ∨ f = .daysElapsed) :
    evaluateAny env s d df ≠ .error .arithmetic ∧ evaluateArithAny env s d ≠ .error .arithmetic := by
  have key : ∀ df a, ¬ (Cause ts df d a .arithmetic ∨ Slip ts df d a .arithmetic) := by
    rintro df a ((hc | hc | ⟨f, ha, hb, hc, hf⟩) | hs)
    · exact h1 hc
    · exact h2 hc
    · rcases h3 f hf with h | h | h
      · exact ha h
      · exact hb h
      · exact hc h
    · exact hs
  exact ⟨fun he => key _ _ ((C93_condition h he).resolve_left (any_not_refused h (by decide) _)),
    fun he => key _ _ ((C93_arithmetic h he).resolve_left (any_not_refused h (by decide) _))⟩

/-- **C93**: in any text, a power or a whole number beyond 64 bits is needed for a number format exception. -/
theorem C93_number_format (h : Cut s ts) (h1 : ¬ Uses ts (.arith .exp)) (h2 : ∀ t ∈ ts, ¬ TooLarge t) :
    evaluateAny env s d df ≠ .error .numberFormat ∧ evaluateArithAny env s d ≠ .error .numberFormat := by
  refine ⟨fun he => ?_, fun he => ?_⟩
  · rcases (C93_condition h he).resolve_left (C76_numbers h h2 _) with hc | hc
    · exact h1 hc
    · exact hc
  · rcases (C93_arithmetic h he).resolve_left (C76_numbers h h2 _) with hc | hc
    · exact h1 hc
    · exact hc

/-- **C93**: any text that can be parsed fails with a class cast only for a minus with a Double or Float in the data, or
for CONTAINS with an array or a collection other than a list. -/
theorem C93_class_cast (h : Cut s ts) (ha : parseAny s df ≠ .error .classCast) (he : evaluateAny env s d df = .error .classCast) :
    (Uses ts (.arith .sub) ∧ HoldsDouble d) ∨ (UsesContains ts ∧ HoldsOther d) :=
  ((C93_condition h he).resolve_left ha).resolve_right id

/-- **C93**: any text needs CONTAINS for a heterogeneous array, a function other than LEN for an invalid container type
and DAYS_ELAPSED for an invalid function argument; in both evaluators. -/
theorem C93_words (h : Cut s ts) :
    (evaluateAny env s d df = .error .heterogeneousArray ∨ evaluateArithAny env s d = .error .heterogeneousArray →
      UsesContains ts) ∧
    (evaluateAny env s d df = .error .invalidContainerType ∨ evaluateArithAny env s d = .error .invalidContainerType →
      ∃ f, f ≠ .len ∧ Uses ts (.fn f)) ∧
    (evaluateAny env s d df = .error .invalidFunctionArgument ∨ evaluateArithAny env s d = .error .invalidFunctionArgument →
      Uses ts (.fn .daysElapsed)) := by
  refine ⟨?_, ?_, ?_⟩ <;> rintro (he | he) <;> first
    | exact ((C93_condition h he).resolve_left (any_not_refused h (by decide) _)).resolve_right id
    | exact ((C93_arithmetic h he).resolve_left (any_not_refused h (by decide) _)).resolve_right id

/-- **C93**: an empty stack is always a refusal of the text; it does not depend on the data. -/
theorem C93_empty_stack (h : Cut s ts) (d' : Data) (env' : Env) (he : evaluateAny env s d df = .error .emptyStack) :
    evaluateAny env' s d' df = .error .emptyStack := by
  rcases C93_condition h he with hp | hp | hp
  · exact (C76_all_data hp env' d').1
  · exact hp.elim
  · exact hp.elim

/-- **C93**: a text that can be parsed fails with a null pointer only for a null inside a list or collection of the data,
a date in the text that is none, a date after TO, or an operand missing without a default field. -/
theorem C93_null_pointer (h : Cut s ts) (ha : parseAny s df ≠ .error .nullPointer)
    (he : evaluateAny env s d df = .error .nullPointer) :
    NullElement d ∨ (∃ t ∈ ts, BadDate t) ∨ DateBound ts ∨ (df = none ∧ (OmitsOperand ts ∨ LacksOperand ts)) := by
  rcases (C93_condition h he).resolve_left ha with (hc | hc | hc) | hc | hc
  · exact .inl hc
  · exact .inr (.inl hc)
  · exact .inr (.inr (.inr ⟨hc.1, .inl hc.2⟩))
  · exact .inr (.inr (.inl hc))
  · exact .inr (.inr (.inr ⟨hc.1, .inr hc.2⟩))

/-- **C93**: in any text, a value of the wrong type needs something that looks at values: a comparison, a range, IN,
CONTAINS, arithmetic, or one of the two slips that are read as a range and as NOT IN. -/
theorem C93_types (h : Cut s ts) (h1 : ¬ UsesValues ts) (h2 : ¬ SkipsTo ts) (h3 : ¬ SkipsIn ts) :
    evaluateAny env s d df ≠ .error .invalidDataType := by
  intro he
  rcases (C93_condition h he).resolve_left (any_not_refused h (by decide) _) with hc | hc | hc
  · exact h1 hc
  · exact h2 hc
  · exact h3 hc

/-- **C93**: in any text, logic and arithmetic are both needed for an unsupported token in a condition. -/
theorem C93_unsupported (h : Cut s ts) (he : evaluateAny env s d df = .error .unsupportedToken) :
    UsesArithmetic ts ∧ (UsesLogic ts ∨ SkipsTo ts) := by
  rcases (C93_condition h he).resolve_left (any_not_refused h (by decide) _) with ⟨h1, h2 | h2⟩ | ⟨h1, h2 | h2⟩
  · cases h2
  · exact ⟨h2, .inl h1⟩
  · cases h2
  · exact ⟨h2, .inr h1⟩

/-- **C93**: any text needs a NOT, or one operand at its beginning with no operator after it, for an invalid unary
operand; the arithmetic evaluator never gives it. -/
theorem C93_unary (h : Cut s ts) : (evaluateAny env s d df = .error .invalidUnaryOperand → UsesTruth ts ∨ LoneOperand ts) ∧
    evaluateArithAny env s d ≠ .error .invalidUnaryOperand := by
  refine ⟨fun he => ?_, fun he => ?_⟩
  · rcases (C93_condition h he).resolve_left (any_not_refused h (by decide) _) with hc | hc
    · exact .inl hc.2
    · exact .inr hc.2
  · rcases (C93_arithmetic h he).resolve_left (any_not_refused h (by decide) _) with hc | hc <;> cases hc.1

/-! ### The slips are slips -/

theorem forall₂_split {α β : Type} {R : α → β → Prop} {ys : List α} : (xs : List α) → {zs : List β} →
    List.Forall₂ R (xs ++ ys) zs → ∃ a b, zs = a ++ b ∧ List.Forall₂ R xs a ∧ List.Forall₂ R ys b
  | [], zs, h => ⟨[], zs, rfl, .nil, h⟩
  | x :: xs, _, .cons h1 h2 => by
    obtain ⟨a, b, rfl, ha, hb⟩ := forall₂_split xs h2
    exact ⟨_ :: a, b, rfl, .cons h1 ha, hb⟩

theorem pattern_malformed (h : Cut s ts) {pre post xs : List JStr} {k : TK} {ks : List TK} (S : Stray k ks)
    (e : ts = pre ++ (xs ++ post)) (hx : List.Forall₂ Classified xs (k :: ks)) : parseExpression s df = .syntaxError := by
  by_contra hn
  obtain ⟨ts', ls, h1, h2, h3⟩ := (C56_accepted s df).1 hn
  rw [← cut_unique h1, cut_unique h, e] at h2
  refine stray_nowhere S h3 ?_
  obtain ⟨a, b, rfl, _, hb⟩ := forall₂_split pre h2
  obtain ⟨c, d, rfl, hc, _⟩ := forall₂_split xs hb
  have : c = k :: ks := by
    clear h2 hb e h3
    generalize k :: ks = l at hx
    induction hx generalizing c with
    | nil => cases hc; rfl
    | cons hx _ ih =>
      cases hc with
      | cons h1 h2 => rw [classified_one h1 hx, ih _ h2]
  rw [this]
  exact ⟨a, d, by simp⟩

/-- **C93**: the sequences read as a range without TO, as NOT IN without IN, and a date after TO occur in no text of the
grammar. -/
theorem C93_malformed (h : Cut s ts) (hs : SkipsTo ts ∨ SkipsIn ts ∨ DateBound ts) : parseExpression s df = .syntaxError := by
  rcases hs with ⟨pre, f, x, y, post, e, _, hx, hy⟩ | ⟨pre, f, x, y, post, e, hf, hx, hy⟩ | ⟨pre, x, t, post, e, hx, ht⟩
  · obtain ⟨a, ha, hx⟩ : ∃ a ∈ numericKinds, Classified x a := by
      rcases hx with hx | hx
      · exact ⟨_, by simp [numericKinds], hx⟩
      · exact ⟨_, by simp [numericKinds], hx⟩
    obtain ⟨b, hb, hy⟩ : ∃ b ∈ numericKinds, Classified y b := by
      rcases hy with hy | hy
      · exact ⟨_, by simp [numericKinds], hy⟩
      · exact ⟨_, by simp [numericKinds], hy⟩
    exact pattern_malformed h (pre := pre ++ [f]) (xs := [x, y]) (post := post) (stray_numbers ha hb) (by simp [e])
      (.cons hx (.cons hy .nil))
  · exact pattern_malformed h (pre := pre) (xs := [f, x, y]) (post := post) stray_not (by simp [e])
      (.cons hf (.cons hx (.cons hy .nil)))
  · rcases ht with ht | ht
    · exact pattern_malformed h (pre := pre) (xs := [x, t]) (post := post) (stray_date (.inl rfl)) (by simp [e])
        (.cons hx (.cons (.date ht) .nil))
    · exact pattern_malformed h (pre := pre) (xs := [x, t]) (post := post) (stray_date (.inr rfl)) (by simp [e])
        (.cons hx (.cons (.datetime ht) .nil))

/-! ### Each slip does occur, where the well-formed causes do not explain the failure -/

section
variable (env : Env)

-- read as a range without TO: no lexeme looks at values
example : evaluateAny env j!"a 1 3" [(j!"a", .str j!"x")] none = .error .invalidDataType := by krfl
-- read as NOT IN without IN
example : evaluateAny env j!"a NOT (5)" [(j!"a", .bool true)] none = .error .invalidDataType := by krfl
-- a date after TO is read together with what follows it, which is no date
example : evaluateAny env j!"a 1 TO 2020-01-01 5" [(j!"a", .str j!"5")] none = .error .nullPointer := by krfl
-- an operand missing before IN
example : evaluateAny env j!"a = IN" [(j!"a", .int 2)] none = .error .nullPointer := by krfl
example : evaluateAny env j!"a = IN" [(j!"a", .int 2)] (some j!"z") = .error .noSuchElement := by krfl
example : evaluateAny env j!"a = IN" [(j!"a", .int 2)] (some j!".") = .error .indexOutOfBounds := by krfl
-- one operand, then something that is not read
example : evaluateAny env j!"'.' 6" [] none = .error .indexOutOfBounds := by krfl
example : evaluateAny env j!"5 6" [(j!"5", .int 2)] none = .error .invalidUnaryOperand := by krfl
-- a range without TO inside arithmetic
example : evaluateAny env j!"5 = ((a 1 3) + 2)" [(j!"a", .int 2)] none = .error .unsupportedToken := by krfl
example : evaluateArithAny env j!"a 1 3" [(j!"a", .int 2)] = .error .unsupportedToken := by krfl
end

/-- The hypotheses of `C93_no_division` on a malformed text: `a 1 3) b` never fails with an arithmetic exception. -/
example (env : Env) (d : Data) : evaluateAny env j!"a 1 3) b" d none ≠ .error .arithmetic := by
  have hc : Cut j!"a 1 3) b" [j!"a", j!"1", j!"3", j!")", j!"b"] := cut_of (by krfl)
  have uses : ∀ {k : TK}, k ∉ kindsOf (lex j!"a 1 3) b") → ¬ Uses _ k := fun h hu => h ((uses_iff hc).1 hu)
  exact (C93_no_division hc (uses (by decide +kernel)) (uses (by decide +kernel))
    fun f hf => absurd hf (uses (by cases f <;> decide +kernel))).1

/-- The clause for the range without TO is needed: the failure of `a 1 3` has no cause of a well-formed text. -/
example (env : Env) : ∃ s ts d, Cut s ts ∧ parseAny s none ≠ .error .invalidDataType ∧
    evaluateAny env s d none = .error .invalidDataType ∧ ¬ Cause ts none d false .invalidDataType ∧ SkipsTo ts := by
  have hc : Cut j!"a 1 3" [j!"a", j!"1", j!"3"] := cut_of (by krfl)
  have he : evaluateAny env j!"a 1 3" [(j!"a", .str j!"x")] none = .error .invalidDataType := by krfl
  have hn : ¬ UsesValues [j!"a", j!"1", j!"3"] := by
    have uses : ∀ {k : TK}, k ∉ kindsOf (lex j!"a 1 3") → ¬ Uses _ k := fun h hu => h ((uses_iff hc).1 hu)
    rintro (⟨o, h⟩ | h | h | h | h | ⟨o, h⟩ | ⟨f, h⟩)
    · exact uses (by cases o <;> decide +kernel) h
    · exact uses (by decide +kernel) h
    · exact uses (by decide +kernel) h
    · exact uses (by decide +kernel) h
    · exact uses (by decide +kernel) h
    · exact uses (by cases o <;> decide +kernel) h
    · exact uses (by cases f <;> decide +kernel) h
  have hp := any_not_refused hc (e := .invalidDataType) (by decide) none
  refine ⟨_, _, _, hc, hp, he, hn, ?_⟩
  rcases ((C93_condition hc he).resolve_left hp).resolve_left hn with h | ⟨pre, f, x, y, post, e, _, hx, _⟩
  · exact h
  · exfalso
    refine absurd ((uses_iff hc).1 ⟨x, by rw [e]; simp, hx⟩) (by decide +kernel)

end BoolParser
