import Verif.Lemmas.Compare
import Verif.Lemmas.Families
import Verif.Lemmas.HandMade
import Verif.Model.Recovery
import Verif.Util.KRfl
/-!
# C99: a parser of the user, and nodes made by hand

`UserParser σ ε` is an implementation of `BoolExpressionParser` with state `σ` and exceptions `ε`; `evaluateBy`,
`evaluateBy2` and `evaluateArithBy` are `evaluate(expression, data, defaultField)`, `evaluate(expression, data)` and
the calculation over it. `evalBoolHand` and `evalArithHand` evaluate the node it returned.
-/

namespace BoolParser

open Spec

/-- Each evaluation calls the parser once: with the text and the default field, or with the text and null. -/
theorem C99_asks {ε : Type} (P : Option JStr → Option JStr → Parsed ε) (env : Env)
    (calls : List (Option JStr × Option JStr)) (s : Option JStr) (d : Data) (df : Option JStr) :
    (evaluateBy (recording P) env calls s d df).2 = calls ++ [(s, df)] ∧
      (evaluateBy2 (recording P) env calls s d).2 = calls ++ [(s, none)] ∧
      (evaluateArithBy (recording P) env calls s d).2 = calls ++ [(s, none)] :=
  ⟨rfl, rfl, rfl⟩

/-- An exception leaves an evaluation only if the parser threw it or returned null. -/
theorem C99_thrown {σ ε : Type} (P : UserParser σ ε) (env : Env) (st : σ) (s : Option JStr) (d : Data)
    (df : Option JStr) (e : ε ⊕ Exn) :
    ((evaluateBy P env st s d df).1 = .thrown e ↔
      (∃ x, (P st s df).1 = .throws x ∧ e = .inl x) ∨ ((P st s df).1 = .returnsNull ∧ e = .inr .nullPointer)) ∧
    ((evaluateArithBy P env st s d).1 = .thrown e ↔
      (∃ x, (P st s none).1 = .throws x ∧ e = .inl x) ∨ ((P st s none).1 = .returnsNull ∧ e = .inr .nullPointer)) := by
  have gen : ∀ {α : Type} (p : Parsed ε) (f : HNode → Result α),
      p.map f = .thrown e ↔ (∃ x, p = .throws x ∧ e = .inl x) ∨ (p = .returnsNull ∧ e = .inr .nullPointer) := by
    intro α p f
    cases p with
    | returnsNull =>
      constructor
      · intro h; cases h; exact .inr ⟨rfl, rfl⟩
      · rintro (⟨x, h, _⟩ | ⟨_, rfl⟩)
        · cases h
        · rfl
    | throws x =>
      constructor
      · intro h; cases h; exact .inl ⟨x, rfl, rfl⟩
      · rintro (⟨y, h, rfl⟩ | ⟨h, _⟩)
        · cases h; rfl
        · cases h
    | failure x =>
      constructor
      · intro h; cases h
      · rintro (⟨y, h, _⟩ | ⟨h, _⟩) <;> cases h
    | success n =>
      constructor
      · intro h
        simp only [Parsed.map] at h
        split at h <;> cases h
      · rintro (⟨y, h, _⟩ | ⟨h, _⟩) <;> cases h
  exact ⟨gen _ _, gen _ _⟩

/-- A `Failure` of the parser is returned as it is, whatever the data; and only then does the evaluation fail with an
exception of the parser. -/
theorem C99_failure {σ ε : Type} (P : UserParser σ ε) (env : Env) (st : σ) (s : Option JStr) (d : Data)
    (df : Option JStr) (x : ε) :
    ((evaluateBy P env st s d df).1 = .failure (.inl x) ↔ (P st s df).1 = .failure x) ∧
      ((evaluateArithBy P env st s d).1 = .failure (.inl x) ↔ (P st s none).1 = .failure x) := by
  have gen : ∀ {α : Type} (p : Parsed ε) (f : HNode → Result α), p.map f = .failure (.inl x) ↔ p = .failure x := by
    intro α p f
    cases p with
    | returnsNull => constructor <;> intro h <;> cases h
    | throws y => constructor <;> intro h <;> cases h
    | failure y =>
      constructor
      · intro h; cases h; rfl
      · intro h; cases h; rfl
    | success n =>
      constructor
      · intro h
        simp only [Parsed.map] at h
        split at h <;> cases h
      · intro h; cases h
  exact ⟨gen _ _, gen _ _⟩

/-- What an evaluation answers or fails with is decided by the node the parser returned and the data alone. -/
theorem C99_node {σ ε : Type} (P : UserParser σ ε) (env : Env) (st : σ) (s : Option JStr) (d : Data)
    (df : Option JStr) (n : HNode) :
    ((P st s df).1 = .success n →
      (∀ b, (evaluateBy P env st s d df).1 = .success b ↔ evalBoolHand env d n = .ok b) ∧
      (∀ e, (evaluateBy P env st s d df).1 = .failure (.inr e) ↔ evalBoolHand env d n = .error e)) ∧
    ((P st s none).1 = .success n →
      (∀ v, (evaluateArithBy P env st s d).1 = .success v ↔ evalArithHand env d n = .ok v) ∧
      (∀ e, (evaluateArithBy P env st s d).1 = .failure (.inr e) ↔ evalArithHand env d n = .error e)) := by
  have gen : ∀ {α : Type} (p : Parsed ε) (f : HNode → Result α), p = .success n →
      (∀ a, p.map f = .success a ↔ f n = .ok a) ∧ (∀ e, p.map f = .failure (.inr e) ↔ f n = .error e) := by
    rintro α p f rfl
    simp only [Parsed.map]
    constructor
    · intro a
      cases f n with
      | ok b => constructor <;> intro h <;> cases h <;> rfl
      | error e => constructor <;> intro h <;> cases h
    · intro a
      cases f n with
      | ok b => constructor <;> intro h <;> cases h
      | error e => constructor <;> intro h <;> cases h <;> rfl
  exact ⟨gen _ _, gen _ _⟩

/-- A parser that hands a text to the library's parser and returns its node changes nothing. -/
theorem C99_delegates {σ : Type} (P : UserParser σ Exn) (env : Env) (st : σ) (s : JStr) (d : Data) (df : Option JStr) :
    (∀ n, parseAny s df = .ok n → (P st (some s) df).1 = .success (HNode.of n) →
      (evaluateBy P env st (some s) d df).1 = called (evaluateAny env s d df)) ∧
    (∀ n, parseAny s none = .ok n → (P st (some s) none).1 = .success (HNode.of n) →
      (evaluateArithBy P env st (some s) d).1 = called (evaluateArithAny env s d)) := by
  constructor
  · intro n hn hp
    have e : (evaluateBy P env st (some s) d df).1 = (P st (some s) df).1.map (evalBoolHand env d) := rfl
    rw [e, hp, evaluateAny, hn]
    simp only [Parsed.map, evalBoolHand_of, ok_bind]
    cases evalBool env d n <;> rfl
  · intro n hn hp
    have e : (evaluateArithBy P env st (some s) d).1 = (P st (some s) none).1.map (evalArithHand env d) := rfl
    rw [e, hp, evaluateArithAny, hn]
    simp only [Parsed.map, evalArithHand_of, ok_bind]
    cases evalArith env d n <;> rfl

/-- A node made by hand that has everything the evaluators follow, and operators where they belong, is evaluated as a
node of the library's classes in the other claims; and the nodes of the library's parser are such nodes. -/
theorem C99_complete {n : HNode} (h : Complete n) :
    ∃ m : Node, ∀ env d, evalBoolHand env d n = evalBool env d m ∧ evalArithHand env d n = evalArith env d m := by
  obtain ⟨m, e⟩ := complete_of h
  exact ⟨m, fun env d => ⟨(strip_bool e env d).trans (evalBoolHand_of env d m), (strip_arith e env d).trans (evalArithHand_of env d m)⟩⟩

theorem C99_library (n : Node) (env : Env) (d : Data) :
    Complete (HNode.of n) ∧ evalBoolHand env d (HNode.of n) = evalBool env d n ∧
      evalArithHand env d (HNode.of n) = evalArith env d n :=
  ⟨of_complete n, evalBoolHand_of env d n, evalArithHand_of env d n⟩

/-- A null inside a node matters only when the evaluation comes to it, and then the failure is a
`NullPointerException`: with something else in its place the outcome is the same or the first one is that failure. -/
theorem C99_null {n m : HNode} (h : Fill n m) (env : Env) (d : Data) :
    (evalBoolHand env d n = .error .nullPointer ∨ evalBoolHand env d n = evalBoolHand env d m) ∧
      (evalArithHand env d n = .error .nullPointer ∨ evalArithHand env d n = evalArithHand env d m) :=
  ⟨(fill_bool env d h).out, (fill_arith env d h).out⟩

/-- The two cases left out of `Fill` are different: the outcomes can be any two, neither of them that exception. Here
`a` is missing from the data; `a = ⟨nothing⟩` and `a ⟨no operator⟩ null` fail for that, `a = null` is true. -/
theorem C99_null_test (env : Env) :
    evalBoolHand env [] (.cmp (.field (some j!"a")) .null (some (.cmp .eq)) none) = .error .dataNotFound ∧
    evalBoolHand env [] (.cmp (.field (some j!"a")) (.field (some j!"null")) none none) = .error .dataNotFound ∧
    evalBoolHand env [] (.cmp (.field (some j!"a")) (.field (some j!"null")) (some (.cmp .eq)) none) = .ok true :=
  ⟨by krfl, by krfl, by krfl⟩

/-- The data types of comparisons and the right children of NOT and of negations are never looked at. -/
theorem C99_unseen (n : HNode) (env : Env) (d : Data) :
    evalBoolHand env d (strip n) = evalBoolHand env d n ∧ evalArithHand env d (strip n) = evalArithHand env d n :=
  ⟨evalBoolHand_strip env d n, evalArithHand_strip env d n⟩

/-- A comparison whose operator is IN is an equality, unless an operand is the field `null`. -/
theorem C99_in (l r : HNode) (dt : Option DataType) (env : Env) (d : Data) (hl : ¬ NamesNull l) (hr : ¬ NamesNull r) :
    evalBoolHand env d (.cmp l r (some .inn) dt) = evalBoolHand env d (.cmp l r (some (.cmp .eq)) dt) := by
  have hi : isNullCheckHand (some .inn) l r = .ok false := isNullCheckHand_ne (by rintro (h | h) <;> cases h) l r
  have he : isNullCheckHand (some (.cmp .eq)) l r = .ok false := by
    rw [isNullCheckHand_eq (.inl rfl), not_namesNull hr, not_namesNull hl]; rfl
  have ho : ∀ a ta b tb, logicalOne (some .inn) a ta b tb = logicalOne (some (.cmp .eq)) a ta b tb := by
    intro a ta b tb
    simp only [logicalOne, logicalIn, logicalCmp, CmpOp.allows, evalCmpOp, evalIn, anyM']
    cases isValid ta a with
    | error e => rfl
    | ok v =>
      cases v with
      | false => rfl
      | true =>
        simp only [ok_bind]
        cases evalEq .eq a ta b tb with
        | error e => rfl
        | ok x => cases x <;> rfl
  simp only [evalBoolHand, evalComparisonHand, hi, he, ho]

/-- An operator in a node it is not for, or none at all, leads to a failure whenever it is come to: such a node never
gives a result, a list of CONTAINS with IN or a comparison operator and a comparison with CONTAINS included. -/
theorem C99_misplaced (l r : HNode) (f : Option JStr) (items : Option (List HNode)) (dt : Option DataType) (env : Env)
    (d : Data) :
    (∀ op, (∀ o, op ≠ some (.cmp o)) → op ≠ some .inn → ∀ b, evalBoolHand env d (.cmp l r op dt) ≠ .ok b) ∧
    (∀ op, (∀ o, op ≠ some (.arr o)) → ∀ b, evalBoolHand env d (.array f op items) ≠ .ok b) ∧
    (∀ op, (∀ o, op ≠ some (.arith o)) → op ≠ some .unary → ∀ v, evalArithHand env d (.arith l r op) ≠ .ok v) ∧
    (∀ b, evalBoolHand env d (.bool l r none) ≠ .ok b) ∧ (∀ v, evalArithHand env d (.func none items) ≠ .ok v) := by
  refine ⟨?_, ?_, ?_, ?_, ?_⟩
  · intro op h1 h2 b h
    simp only [evalBoolHand, evalComparisonHand] at h
    obtain ⟨_, _, h⟩ := bind_ok_inv h
    obtain ⟨_, _, h⟩ := bind_ok_inv h
    obtain ⟨_, _, h⟩ := bind_ok_inv h
    obtain ⟨_, _, h⟩ := bind_ok_inv h
    match op, h1, h2, h with
    | none, _, _, h => cases h
    | some (.cmp o), h1, _, _ => exact h1 o rfl
    | some .inn, _, h2, _ => exact h2 rfl
    | some (.arith _), _, _, h => cases h
    | some .unary, _, _, h => cases h
    | some (.arr _), _, _, h => cases h
  · intro op h1 b h
    simp only [evalBoolHand] at h
    obtain ⟨_, _, h⟩ := bind_ok_inv h
    obtain ⟨vs, _, h⟩ := bind_ok_inv h
    by_cases hh : heterogeneous (flattenItems vs)
    · rw [if_pos hh] at h; cases h
    · rw [if_neg hh] at h
      match op, h1, h with
      | none, _, h => cases h
      | some (.arr o), h1, _ => exact h1 o rfl
      | some (.cmp _), _, h => cases h
      | some .inn, _, h => cases h
      | some (.arith _), _, h => cases h
      | some .unary, _, h => cases h
  · intro op h1 h2 v h
    simp only [evalArithHand] at h
    obtain ⟨_, _, h⟩ := bind_ok_inv h
    match op, h1, h2, h with
    | none, _, _, h => cases h
    | some (.arith o), h1, _, _ => exact h1 o rfl
    | some .unary, _, h2, _ => exact h2 rfl
    | some (.cmp _), _, _, h => obtain ⟨_, _, h⟩ := bind_ok_inv h; cases h
    | some .inn, _, _, h => obtain ⟨_, _, h⟩ := bind_ok_inv h; cases h
    | some (.arr _), _, _, h => obtain ⟨_, _, h⟩ := bind_ok_inv h; cases h
  · intro b h
    simp only [evalBoolHand] at h
    cases h
  · intro v h
    simp only [evalArithHand] at h
    obtain ⟨vs, _, h⟩ := bind_ok_inv h
    simp only [callFnHand] at h
    split at h <;> cases h

/-- The failure, in each case: where the node with an operator for it has a result, CONTAINS in a comparison, and IN or a
comparison operator in a CONTAINS test, fail with InvalidContainerType, and every other wrong operator, and none, with a
NullPointerException. -/
theorem C99_wrong_operator (l r : HNode) (f : Option JStr) (items : Option (List HNode)) (dt : Option DataType) (env : Env)
    (d : Data) :
    (∀ b, evalBoolHand env d (.cmp l r (some .inn) dt) = .ok b →
      (∀ o, evalBoolHand env d (.cmp l r (some (.arr o)) dt) = .error .invalidContainerType) ∧
      (∀ o, evalBoolHand env d (.cmp l r (some (.arith o)) dt) = .error .nullPointer) ∧
      evalBoolHand env d (.cmp l r (some .unary) dt) = .error .nullPointer ∧
      evalBoolHand env d (.cmp l r none dt) = .error .nullPointer) ∧
    (∀ o b, evalBoolHand env d (.array f (some (.arr o)) items) = .ok b →
      (∀ o, evalBoolHand env d (.array f (some (.cmp o)) items) = .error .invalidContainerType) ∧
      evalBoolHand env d (.array f (some .inn) items) = .error .invalidContainerType ∧
      (∀ o, evalBoolHand env d (.array f (some (.arith o)) items) = .error .nullPointer) ∧
      evalBoolHand env d (.array f (some .unary) items) = .error .nullPointer ∧
      evalBoolHand env d (.array f none items) = .error .nullPointer) ∧
    (∀ o v, evalArithHand env d (.arith l r (some (.arith o))) = .ok v →
      (∀ o, evalArithHand env d (.arith l r (some (.cmp o))) = .error .nullPointer) ∧
      (∀ o, evalArithHand env d (.arith l r (some (.arr o))) = .error .nullPointer) ∧
      evalArithHand env d (.arith l r (some .inn)) = .error .nullPointer ∧
      evalArithHand env d (.arith l r none) = .error .nullPointer) ∧
    evalBoolHand env d (.bool l r none) = .error .nullPointer ∧
    (∀ g v, evalArithHand env d (.func (some g) items) = .ok v → evalArithHand env d (.func none items) = .error .nullPointer) := by
  refine ⟨?_, ?_, ?_, ?_, ?_⟩
  · intro b h
    simp only [evalBoolHand] at h ⊢
    obtain ⟨a, c, key⟩ := comparisonHand_inn h
    exact ⟨fun _ => (key _ rfl).trans rfl, fun _ => (key _ rfl).trans rfl, (key _ rfl).trans rfl, (key _ rfl).trans rfl⟩
  · intro o b h
    simp only [evalBoolHand] at h ⊢
    obtain ⟨v, e1, h⟩ := bind_ok_inv h
    obtain ⟨vs, e2, h⟩ := bind_ok_inv h
    by_cases hh : heterogeneous (flattenItems vs)
    · rw [if_pos hh] at h; cases h
    · rw [e1, e2]
      simp only [ok_bind, if_neg hh]
      exact ⟨fun _ => rfl, rfl, fun _ => rfl, rfl, rfl⟩
  · intro o v h
    simp only [evalArithHand] at h ⊢
    obtain ⟨a, e1, h⟩ := bind_ok_inv h
    obtain ⟨b, e2, h⟩ := bind_ok_inv h
    rw [e1, e2]
    exact ⟨fun _ => rfl, fun _ => rfl, rfl, rfl⟩
  · simp only [evalBoolHand]
  · intro g v h
    simp only [evalArithHand] at h ⊢
    obtain ⟨vs, e1, h⟩ := bind_ok_inv h
    rw [e1]
    simp only [callFnHand] at h
    simp only [ok_bind, callFnHand]
    cases e : (flattenItems vs).isEmpty with
    | false => rfl
    | true => unfold callFn at h; rw [if_pos e] at h; cases h

/-- A bound of a range without a data type: the test fails with InvalidDataType, not with a NullPointerException. -/
theorem C99_untyped_bound {f : Option JStr} {env : Env} {d : Data} {v : Value} (hv : evalArithHand env d (.field f) = .ok v)
    (lo hi : Value) :
    (∀ hiT, evalBoolHand env d (.range f lo hi none hiT) = .error .invalidDataType) ∧
    (∀ loT hiT b, evalBoolHand env d (.range f lo hi loT hiT) = .ok b →
      evalBoolHand env d (.range f lo hi loT none) = .error .invalidDataType) := by
  simp only [evalArithHand] at hv
  have hn : v ≠ .null := by
    cases f with
    | none => cases hv
    | some k =>
      have h := require_of hv
      intro e; subst e
      exact walkKeys_nn _ _ h
  have key : ∀ (op : CmpOp) (x : Value), logicalBound op v (getDataType v) x none = .error .invalidDataType := by
    intro op x
    simp only [logicalBound]
    by_cases ha : (!op.allows (getDataType v)) = true
    · rw [if_pos ha]; rfl
    · rw [if_neg ha]
      rcases own_type hn with h | ⟨_, _, h⟩ <;> rw [h] <;> rfl
  simp only [evalBoolHand, evalRangeHand, hv, ok_bind]
  refine ⟨fun hiT => by rw [key]; rfl, fun loT hiT b h => ?_⟩
  obtain ⟨a, e1, h⟩ := bind_ok_inv h
  rw [e1, ok_bind, key]; rfl

/-- A node of a class of the user is never a value of a calculation: its type is unsupported, or the node is taken for
the library's node of that type. As a condition it is false if it says that it is a field, a calculation or a function,
and is taken for the library's node otherwise. -/
theorem C99_foreign (a : Bool) (t : NodeType) (env : Env) (d : Data) :
    evalArithHand env d (.foreign a (some t)) =
      .error (if t ∈ [.field, .unary, .arithmetic, .arithmeticFunction] then .classCast else .unsupportedToken) ∧
    evalBoolHand env d (.foreign a (some t)) =
      (if t ∈ [.field, .arithmetic, .arithmeticFunction] then .ok false else .error .classCast) ∧
    evalArithHand env d (.foreign a none) = .error .nullPointer ∧
    evalBoolHand env d (.foreign a none) = .error .nullPointer := by
  simp only [evalArithHand, evalBoolHand]
  cases t <;> exact ⟨rfl, rfl, rfl, rfl⟩

/-! ### Examples -/

/-- A range made by hand without a type for its lower bound. -/
example (env : Env) : evalBoolHand env [(j!"a", .int 1)] (.range (some j!"a") (.int 0) (.int 5) none (some .integer)) =
    .error .invalidDataType :=
  (C99_untyped_bound (v := .int 1) (by krfl) _ _).1 _

/-- `a ⟨CONTAINS_ALL⟩ 1` as a comparison. -/
example (env : Env) : evalBoolHand env [(j!"a", .int 1)]
    (.cmp (.field (some j!"a")) (.unary (some .integer) (.int 1)) (some (.arr .containsAll)) none) = .error .invalidContainerType :=
  ((C99_wrong_operator _ _ none none none env _).1 true (by krfl)).1 _

/-- `a > 1 AND ⟨nothing⟩`, with `b` put there. -/
example : Fill (.bool (.cmp (.field (some j!"a")) (.unary (some .integer) (.int 1)) (some (.cmp .gt)) none) .null (some .and))
    (.bool (.cmp (.field (some j!"a")) (.unary (some .integer) (.int 1)) (some (.cmp .gt)) (some .integer))
      (.unary (some .string) (.str j!"b")) (some .and)) :=
  .bool (.cmp _ _ (.same _) (.same _) (.inl rfl) (by intro h; cases h)) (.null _) (.inr rfl)

/-- It is false where `a` is 1, and fails where `a` is 2. -/
example (env : Env) :
    evalBoolHand env [(j!"a", .int 1)]
      (.bool (.cmp (.field (some j!"a")) (.unary (some .integer) (.int 1)) (some (.cmp .gt)) none) .null (some .and)) =
      .ok false ∧
    evalBoolHand env [(j!"a", .int 2)]
      (.bool (.cmp (.field (some j!"a")) (.unary (some .integer) (.int 1)) (some (.cmp .gt)) none) .null (some .and)) =
      .error .nullPointer :=
  ⟨by krfl, by krfl⟩

/-- A complete node with a right child under NOT and no data type. -/
example : Complete (.bool (.cmp (.field (some j!"a")) (.unary (some .integer) (.int 1)) (some (.cmp .gt)) none) .null (some .not)) :=
  .not _ (.cmp _ _ (.field _) (.unary _ _))

/-- A comparison with IN: `a IN 1` is true where `a` is the text `1`. -/
example (env : Env) :
    evalBoolHand env [(j!"a", .str j!"1")] (.cmp (.field (some j!"a")) (.unary (some .integer) (.int 1)) (some .inn) none) =
      .ok true ∧ ¬ NamesNull (.field (some j!"a")) ∧ ¬ NamesNull (.unary (some .integer) (.int 1)) :=
  ⟨by krfl, (by decide +kernel : ¬ (lower j!"a" = j!"null")), fun h => h⟩

/-- A parser that returns null, and one that fails with its own exception. -/
example (env : Env) (d : Data) :
    (evaluateBy (fun (st : Unit) _ _ => (Parsed.returnsNull (ε := String), st)) env () none d none).1 =
        .thrown (.inr .nullPointer) ∧
      (evaluateBy (fun (st : Unit) _ _ => (Parsed.failure "no", st)) env () none d none).1 = .failure (.inl "no") :=
  ⟨rfl, rfl⟩

/-- A parser that answers every text with the node of `a = 1`. -/
example : parseAny j!"a = 1" none =
    .ok (.cmp (.field (some j!"a")) (.unary .integer (.int 1)) .eq .integer) := by krfl

end BoolParser
