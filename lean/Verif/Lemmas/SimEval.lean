import Verif.Lemmas.Sim
/-!
# Related nodes evaluate alike
-/

namespace BoolParser

/-- The outcome of evaluating related parts is the same. -/
structure EvalSim (V : Vocab) (env env' : Env) (d d' : Data) : Prop where
  field : ∀ {f f'}, V.field f f' → getValueFromMap f d = getValueFromMap f' d' ∧
    (lower f == j!"null") = (lower f' == j!"null")
  lit : ∀ {dt v v'}, V.lit dt v v' → v = v' ∧ evalUnary d dt v = evalUnary d' dt v'
  bound : ∀ {v v'}, V.bound v v' → v = v'
  word : ∀ {dt v v'}, V.word dt v v' → evalUnary d dt v = evalUnary d' dt v'
  lone : ∀ {v v'}, V.lone v v' → evalUnary d .string v = evalUnary d' .string v'
  op : ∀ {o}, V.op o → arithBinary env o = arithBinary env' o
  fn : ∀ {f}, V.fn f → callFn env f = callFn env' f

variable {V : Vocab} {env env' : Env} {d d' : Data}

theorem requireField_sim (E : EvalSim V env env' d d') {f f' : JStr} (h : V.field f f') :
    requireField (some f) d = requireField (some f') d' := by
  simp only [requireField, lookupField, (E.field h).1]

mutual
theorem evalArith_sim (E : EvalSim V env env' d d') : {n n' : Node} → NodeRel V n n' →
    evalArith env d n = evalArith env' d' n'
  | _, _, .cmp _ _ _ _ => by simp only [evalArith]
  | _, _, .range _ _ _ => by simp only [evalArith]
  | _, _, .inn _ _ => by simp only [evalArith]
  | _, _, .array _ _ _ => by simp only [evalArith]
  | _, _, .unary h => by simp only [evalArith, (E.lit h).1]
  | _, _, .and_ _ _ => by simp only [evalArith]
  | _, _, .or_ _ _ => by simp only [evalArith]
  | _, _, .not_ _ => by simp only [evalArith]
  | _, _, .word _ => by simp only [evalArith]
  | _, _, .nofield => by simp only [evalArith, requireField, lookupField]
  | _, _, .field h => by rw [evalArith, evalArith, requireField_sim E h]
  | _, _, .arith h hl hr => by
    rw [evalArith, evalArith, evalArith_sim E hl, evalArith_sim E hr, E.op h]
  | _, _, .neg h => by rw [evalArith, evalArith, evalArith_sim E h]
  | _, _, .func h hs => by rw [evalArith, evalArith, evalArithAll_sim E hs, E.fn h]
theorem evalArithAll_sim (E : EvalSim V env env' d d') : {ns ns' : List Node} → NodesRel V ns ns' →
    evalArithAll env d ns = evalArithAll env' d' ns'
  | _, _, .nil => by rw [evalArithAll, evalArithAll]
  | _, _, .cons h hs => by rw [evalArithAll, evalArithAll, evalArith_sim E h, evalArithAll_sim E hs]
end

theorem operandValue_sim (E : EvalSim V env env' d d') {n n' : Node} (h : NodeRel V n n') {b b' : Result Bool}
    (hb : b = b') : operandValue env d n b = operandValue env' d' n' b' := by
  subst hb
  have ha := evalArith_sim E h
  cases h with
  | field h => simp only [operandValue, lookupField, (E.field h).1]
  | nofield => rfl
  | unary h => simp only [operandValue, (E.lit h).1]
  | arith _ _ _ => simp only [operandValue, ha, Node.isArithBase]
  | neg _ => simp only [operandValue, ha, Node.isArithBase]
  | func _ _ => simp only [operandValue, ha, Node.isArithBase]
  | _ => rfl

theorem itemValue_sim (E : EvalSim V env env' d d') {n n' : Node} (h : NodeRel V n n') {b b' : Result Bool}
    (hb : b = b') : itemValue env d n b = itemValue env' d' n' b' := by
  subst hb
  unfold itemValue
  rw [node_isArithBase h, evalArith_sim E h]

theorem isNullField_sim (E : EvalSim V env env' d d') {n n' : Node} (h : NodeRel V n n') :
    n.isNullField = n'.isNullField := by
  cases h with
  | field h => simp only [Node.isNullField, (E.field h).2]
  | _ => rfl

theorem isNullCheck_sim (E : EvalSim V env env' d d') (o : CmpOp) {l l' r r' : Node} (hl : NodeRel V l l')
    (hr : NodeRel V r r') : isNullCheck o l r = isNullCheck o l' r' := by
  simp only [isNullCheck, isNullField_sim E hl, isNullField_sim E hr]

mutual
theorem evalBool_sim (E : EvalSim V env env' d d') : {n n' : Node} → NodeRel V n n' →
    evalBool env d n = evalBool env' d' n'
  | _, _, .cmp _ _ hl hr => by
    rw [evalBool, evalBool, operandValue_sim E hl (evalBool_sim E hl), operandValue_sim E hr (evalBool_sim E hr),
      evalComparison, evalComparison, isNullCheck_sim E _ hl hr]
  | _, _, .range h h1 h2 => by
    rw [evalBool, evalBool, evalRange, evalRange, requireField_sim E h, E.bound h1, E.bound h2]
  | _, _, .inn h hs => by rw [evalBool, evalBool, requireField_sim E h, evalItems_sim E hs]
  | _, _, .array _ h hs => by rw [evalBool, evalBool, requireField_sim E h, evalItems_sim E hs]
  | _, _, .unary h => by rw [evalBool, evalBool, (E.lit h).2]
  | _, _, .and_ hl hr => by rw [evalBool, evalBool, evalBool_sim E hl, evalBool_sim E hr]
  | _, _, .or_ hl hr => by rw [evalBool, evalBool, evalBool_sim E hl, evalBool_sim E hr]
  | _, _, .not_ h => by rw [evalBool, evalBool, evalBool_sim E h]
  | _, _, .word h => by rw [evalBool, evalBool, evalBool, evalBool, E.word h]
  | _, _, .nofield => by rw [evalBool, evalBool]
  | _, _, .field _ => by rw [evalBool, evalBool]
  | _, _, .arith _ _ _ => by rw [evalBool, evalBool]
  | _, _, .neg _ => by rw [evalBool, evalBool]
  | _, _, .func _ _ => by rw [evalBool, evalBool]
theorem evalItems_sim (E : EvalSim V env env' d d') : {ns ns' : List Node} → NodesRel V ns ns' →
    evalItems env d ns = evalItems env' d' ns'
  | _, _, .nil => by rw [evalItems, evalItems]
  | _, _, .cons h hs => by
    rw [evalItems, evalItems, itemValue_sim E h (evalBool_sim E h), evalItems_sim E hs]
end

/-- Texts with related tokens evaluate alike. -/
theorem evaluate_sim {R : Token → Token → Prop} {df df' : Option JStr} (S : Sim R V df df') (he : R eofTok eofTok)
    (E : EvalSim V env env' d d') {s s' : JStr} (h : List.Forall₂ R (lex s) (lex s')) :
    evaluate env s d df = evaluate env' s' d' df' := by
  unfold evaluate
  have := parseExpression_rel S he h
  revert this
  generalize parseExpression s df = x
  generalize parseExpression s' df' = x'
  intro this
  cases this with
  | success h =>
    simp only [Outcome.andThen]
    rcases h with h | ⟨v, v', rfl, rfl, h⟩
    · rw [evalBool_sim E h]
    · rw [evalBool, evalBool, E.lone h]
  | failure e => rfl
  | syntaxError => rfl

theorem evaluateArith_sim {R : Token → Token → Prop} (S : Sim R V none none) (he : R eofTok eofTok)
    (E : EvalSim V env env' d d') (hl : ∀ {v v'}, V.lone v v' → v = v') {s s' : JStr} (h : List.Forall₂ R (lex s) (lex s')) :
    evaluateArith env s d = evaluateArith env' s' d' := by
  unfold evaluateArith
  have := parseExpression_rel S he h
  revert this
  generalize parseExpression s none = x
  generalize parseExpression s' none = x'
  intro this
  cases this with
  | success h =>
    simp only [Outcome.andThen]
    rcases h with h | ⟨v, v', rfl, rfl, h⟩
    · rw [evalArith_sim E h]
    · rw [evalArith, evalArith, hl h]
  | failure e => rfl
  | syntaxError => rfl

end BoolParser
