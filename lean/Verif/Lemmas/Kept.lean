import Verif.Lemmas.Texts
import Verif.Lemmas.Local
/-!
# More data keep a result
-/

namespace BoolParser
open Spec

/-- The values that are found with `d` are found with `d'`. -/
def V1 (d d' : Data) : Vocab where
  field f f' := f = f' ∧ (∀ v, getValueFromMap f d = .ok (some v) → getValueFromMap f d' = .ok (some v)) ∧
    (lower f == j!"null") = false
  lit dt v v' := v = v' ∧ ∀ b, evalUnary d dt v = .ok b → evalUnary d' dt v = .ok b
  bound v v' := v = v'
  word dt v v' := v = v' ∧ ∀ b, evalUnary d dt v = .ok b → evalUnary d' dt v = .ok b
  lone v v' := v = v' ∧ ∀ b, evalUnary d .string v = .ok b → evalUnary d' .string v = .ok b
  fn _ := True
  op _ := True

variable {env : Env} {d d' : Data}

theorem lookupField_kept {f f' : JStr} (h : (V1 d d').field f f') {v : Value} (hv : lookupField (some f) d = .ok (some v)) :
    lookupField (some f') d' = .ok (some v) := by
  obtain ⟨rfl, h, _⟩ := h
  exact h v hv

theorem requireField_kept {f f' : JStr} (h : (V1 d d').field f f') {v : Value} (hv : requireField (some f) d = .ok v) :
    requireField (some f') d' = .ok v := by
  unfold requireField at hv ⊢
  obtain ⟨o, h1, h2⟩ := bind_ok_inv hv
  cases o with
  | none => cases h2
  | some w => rw [lookupField_kept h h1]; exact h2

mutual
theorem evalArith_kept : {n n' : Node} → NodeRel (V1 d d') n n' → {v : Value} → evalArith env d n = .ok v →
    evalArith env d' n' = .ok v
  | _, _, .cmp _ _ _ _, _, hv => by simp only [evalArith] at hv; cases hv
  | _, _, .range _ _ _, _, hv => by simp only [evalArith] at hv; cases hv
  | _, _, .inn _ _, _, hv => by simp only [evalArith] at hv; cases hv
  | _, _, .array _ _ _, _, hv => by simp only [evalArith] at hv; cases hv
  | _, _, .unary h, _, hv => by simp only [evalArith] at hv ⊢; rw [← h.1]; exact hv
  | _, _, .and_ _ _, _, hv => by simp only [evalArith] at hv; cases hv
  | _, _, .or_ _ _, _, hv => by simp only [evalArith] at hv; cases hv
  | _, _, .not_ _, _, hv => by simp only [evalArith] at hv; cases hv
  | _, _, .word _, _, hv => by simp only [evalArith] at hv; cases hv
  | _, _, .nofield, _, hv => by simp only [evalArith] at hv; cases hv
  | _, _, .field h, _, hv => by rw [evalArith] at hv ⊢; exact requireField_kept h hv
  | _, _, .arith _ hl hr, _, hv => by
    rw [evalArith] at hv ⊢
    obtain ⟨a, h1, hv⟩ := bind_ok_inv hv
    obtain ⟨b, h2, hv⟩ := bind_ok_inv hv
    rw [evalArith_kept hl h1, ok_bind, evalArith_kept hr h2, ok_bind]
    exact hv
  | _, _, .neg h, _, hv => by
    rw [evalArith] at hv ⊢
    obtain ⟨a, h1, hv⟩ := bind_ok_inv hv
    rw [evalArith_kept h h1, ok_bind]
    exact hv
  | _, _, .func _ hs, _, hv => by
    rw [evalArith] at hv ⊢
    obtain ⟨a, h1, hv⟩ := bind_ok_inv hv
    rw [evalArithAll_kept hs h1, ok_bind]
    exact hv
theorem evalArithAll_kept : {ns ns' : List Node} → NodesRel (V1 d d') ns ns' → {vs : List Value} →
    evalArithAll env d ns = .ok vs → evalArithAll env d' ns' = .ok vs
  | _, _, .nil, _, hv => by rw [evalArithAll] at hv ⊢; exact hv
  | _, _, .cons h hs, _, hv => by
    rw [evalArithAll] at hv ⊢
    obtain ⟨a, h1, hv⟩ := bind_ok_inv hv
    obtain ⟨b, h2, hv⟩ := bind_ok_inv hv
    rw [evalArith_kept h h1, ok_bind, evalArithAll_kept hs h2, ok_bind]
    exact hv
end

theorem operandValue_kept {n n' : Node} (h : NodeRel (V1 d d') n n') {b b' : Result Bool}
    (hb : ∀ x, b = .ok x → b' = .ok x) {v : Value} (hv : operandValue env d n b = .ok (some v)) :
    operandValue env d' n' b' = .ok (some v) := by
  have ha : ∀ {v}, evalArith env d n = .ok v → evalArith env d' n' = .ok v := evalArith_kept h
  cases h with
  | field h => exact lookupField_kept h hv
  | nofield => cases hv
  | unary h => simp only [operandValue] at hv ⊢; rw [← h.1]; exact hv
  | arith _ _ _ | neg _ | func _ _ =>
    simp only [operandValue, Node.isArithBase, if_true] at hv ⊢
    obtain ⟨a, h1, hv⟩ := bind_ok_inv hv
    rw [ha h1, ok_bind]; exact hv
  | _ =>
    simp only [operandValue, Node.isArithBase, Bool.false_eq_true, if_false] at hv ⊢
    obtain ⟨a, h1, hv⟩ := bind_ok_inv hv
    rw [hb _ h1, ok_bind]; exact hv

theorem isNullField_kept {n n' : Node} (h : NodeRel (V1 d d') n n') : n.isNullField = n'.isNullField ∧
    n.isNullField ≠ .ok true := by
  cases h with
  | field h => obtain ⟨rfl, _, h⟩ := h; refine ⟨rfl, ?_⟩; rw [Node.isNullField, h]; simp
  | _ => exact ⟨rfl, by simp [Node.isNullField]⟩

theorem isNullCheck_kept (o : CmpOp) {l l' r r' : Node} (hl : NodeRel (V1 d d') l l') (hr : NodeRel (V1 d d') r r') :
    isNullCheck o l r = isNullCheck o l' r' ∧ isNullCheck o l r ≠ .ok true := by
  unfold isNullCheck
  have h1 := isNullField_kept hl
  have h2 := isNullField_kept hr
  rw [← h1.1, ← h2.1]
  refine ⟨rfl, ?_⟩
  split
  · cases h : r.isNullField with
    | error e => simp [bind, Except.bind]
    | ok b =>
      cases b with
      | true => exact absurd h h2.2
      | false => exact h1.2
  · simp

theorem itemValue_kept {n n' : Node} (h : NodeRel (V1 d d') n n') {b b' : Result Bool}
    (hb : ∀ x, b = .ok x → b' = .ok x) {v : Value} (hv : itemValue env d n b = .ok v) : itemValue env d' n' b' = .ok v := by
  unfold itemValue at hv ⊢
  rw [← node_isArithBase h]
  by_cases hc : n.isArithBase = true
  · rw [if_pos hc] at hv ⊢; exact evalArith_kept h hv
  · rw [if_neg hc] at hv ⊢
    obtain ⟨a, h1, hv⟩ := bind_ok_inv hv
    rw [hb _ h1, ok_bind]; exact hv

mutual
theorem evalBool_kept : {n n' : Node} → NodeRel (V1 d d') n n' → {b : Bool} → evalBool env d n = .ok b →
    evalBool env d' n' = .ok b
  | _, _, .cmp (l := l) (r := r) o _ hl hr, _, hv => by
    have hnc := isNullCheck_kept o hl hr
    rw [evalBool, evalComparison] at hv ⊢
    obtain ⟨lo, h1, hv⟩ := bind_ok_inv hv
    obtain ⟨nc, h2, hv⟩ := bind_ok_inv hv
    cases nc with
    | true => exact absurd h2 hnc.2
    | false =>
      obtain ⟨a, h3, hv1⟩ := bind_ok_inv hv
      obtain ⟨b, h4, hv2⟩ := bind_ok_inv hv1
      simp only [Bool.false_eq_true, if_false] at h3 h4
      obtain ⟨ro, h5, h4⟩ := bind_ok_inv h4
      cases lo with
      | none => cases h3
      | some lv =>
        cases ro with
        | none => cases h4
        | some rv =>
          cases h3
          cases h4
          rw [operandValue_kept hl (fun x hx => evalBool_kept hl hx) h1, ok_bind, ← hnc.1, h2, ok_bind]
          simp only [Bool.false_eq_true, if_false]
          rw [operandValue_kept hr (fun x hx => evalBool_kept hr hx) h5]
          exact hv2
  | _, _, .range h h1 h2, _, hv => by
    rw [evalBool, evalRange] at hv ⊢
    obtain ⟨v, h3, hv⟩ := bind_ok_inv hv
    rw [requireField_kept h h3, ok_bind, ← h1, ← h2]
    exact hv
  | _, _, .inn h hs, _, hv => by
    rw [evalBool] at hv ⊢
    obtain ⟨v, h1, hv⟩ := bind_ok_inv hv
    obtain ⟨vs, h2, hv⟩ := bind_ok_inv hv
    rw [requireField_kept h h1, ok_bind, evalItems_kept hs h2, ok_bind]
    exact hv
  | _, _, .array _ h hs, _, hv => by
    rw [evalBool] at hv ⊢
    obtain ⟨v, h1, hv⟩ := bind_ok_inv hv
    obtain ⟨vs, h2, hv⟩ := bind_ok_inv hv
    rw [requireField_kept h h1, ok_bind, evalItems_kept hs h2, ok_bind]
    exact hv
  | _, _, .unary h, _, hv => by rw [evalBool] at hv ⊢; rw [← h.1]; exact h.2 _ hv
  | _, _, .and_ hl hr, _, hv => by
    rw [evalBool] at hv ⊢
    obtain ⟨a, h1, hv⟩ := bind_ok_inv hv
    rw [evalBool_kept hl h1, ok_bind]
    cases a with
    | true => exact evalBool_kept hr hv
    | false => exact hv
  | _, _, .or_ hl hr, _, hv => by
    rw [evalBool] at hv ⊢
    obtain ⟨a, h1, hv⟩ := bind_ok_inv hv
    rw [evalBool_kept hl h1, ok_bind]
    cases a with
    | false => exact evalBool_kept hr hv
    | true => exact hv
  | _, _, .not_ h, _, hv => by
    rw [evalBool] at hv ⊢
    obtain ⟨a, h1, hv⟩ := bind_ok_inv hv
    rw [evalBool_kept h h1, ok_bind]
    exact hv
  | _, _, .word h, _, hv => by
    rw [evalBool, evalBool] at hv ⊢
    obtain ⟨a, h1, hv⟩ := bind_ok_inv hv
    rw [← h.1, h.2 _ h1, ok_bind]
    exact hv
  | _, _, .nofield, _, hv => by rw [evalBool] at hv ⊢; exact hv
  | _, _, .field _, _, hv => by rw [evalBool] at hv ⊢; exact hv
  | _, _, .arith _ _ _, _, hv => by rw [evalBool] at hv ⊢; exact hv
  | _, _, .neg _, _, hv => by rw [evalBool] at hv ⊢; exact hv
  | _, _, .func _ _, _, hv => by rw [evalBool] at hv ⊢; exact hv
theorem evalItems_kept : {ns ns' : List Node} → NodesRel (V1 d d') ns ns' → {vs : List Value} →
    evalItems env d ns = .ok vs → evalItems env d' ns' = .ok vs
  | _, _, .nil, _, hv => by rw [evalItems] at hv ⊢; exact hv
  | _, _, .cons h hs, _, hv => by
    rw [evalItems] at hv ⊢
    obtain ⟨a, h1, hv⟩ := bind_ok_inv hv
    obtain ⟨b, h2, hv⟩ := bind_ok_inv hv
    rw [itemValue_kept h (fun x hx => evalBool_kept h hx) h1, ok_bind, evalItems_kept hs h2, ok_bind]
    exact hv
end

/-- The tokens of the text, and the end of input. -/
def Occurs (s : JStr) (t t' : Token) : Prop := t = t' ∧ (t ∈ lex s ∨ t = eofTok)

theorem kept_sim {s : JStr} {df : Option JStr}
    (hf : ∀ t ∈ lex s, t.kind = .field → (lower t.text == j!"null") = false)
    (hk : ∀ t ∈ lex s, ∀ v, getValueFromMap t.text d = .ok (some v) → getValueFromMap t.text d' = .ok (some v))
    (hc : ∀ t, (t ∈ lex s ∨ t = eofTok) → ∀ dt v, (dt = tokType t ∨ dt = .string) → convertValue t.text dt = .ok v →
      dt ≠ .boolean → v ≠ .null → ∀ w, getValueFromMap v.text d = .ok (some w) → getValueFromMap v.text d' = .ok (some w))
    (hd : ∀ f, df = some f → (V1 d d').field f f) : Sim (Occurs s) (V1 d d') df df where
  kind h := by rw [h.1]
  type h := by rw [h.1]
  field h hkind := by
    obtain ⟨rfl, h | rfl⟩ := h
    · exact ⟨rfl, hk _ h, hf _ h hkind⟩
    · cases hkind
  lit h _ := by
    obtain ⟨rfl, h⟩ := h
    exact RRel.refl_ok (fun v hv => ⟨rfl, fun b he => evalUnary_kept (hc _ h _ v (.inl rfl) hv) he⟩)
  bound h := h.1
  lone h _ _ := by
    obtain ⟨rfl, h⟩ := h
    exact RRel.refl_ok (fun v hv => ⟨rfl, fun b he => evalUnary_kept (hc _ h _ v (.inr rfl) hv) he⟩)
  word h _ := by
    obtain ⟨rfl, h⟩ := h
    exact RRel.refl_ok (fun v hv => ⟨rfl, fun b he => evalUnary_kept (hc _ h _ v (.inl rfl) hv) he⟩)
  fn _ _ := trivial
  op _ _ := trivial
  dflt := by
    cases df with
    | none => exact .none
    | some f => exact .some (hd f rfl)

theorem evaluate_kept {s : JStr} {df : Option JStr} (S : Sim (Occurs s) (V1 d d') df df) {b : Bool}
    (h : evaluate env s d df = .success b) : evaluate env s d' df = .success b := by
  unfold evaluate at h ⊢
  have := parseExpression_rel S ⟨rfl, .inr rfl⟩ (s := s) (s' := s) (forall2_diag (fun t ht => ⟨rfl, .inl ht⟩))
  cases hp : parseExpression s df with
  | failure e => rw [hp] at h; cases h
  | syntaxError => rw [hp] at h; cases h
  | success n =>
    rw [hp] at h this
    simp only [Outcome.andThen] at h ⊢
    cases this with
    | success hn =>
      cases he : evalBool env d n with
      | error e => rw [he] at h; cases h
      | ok x =>
        rw [he] at h
        rcases hn with hn | ⟨v, v', rfl, hv', hn⟩
        · rw [evalBool_kept hn he]; exact h
        · cases hv'
          rw [evalBool] at he ⊢
          rw [hn.2 _ he]; exact h

theorem evaluateArith_kept {s : JStr} (S : Sim (Occurs s) (V1 d d') none none) {v : Value}
    (h : evaluateArith env s d = .success v) : evaluateArith env s d' = .success v := by
  unfold evaluateArith at h ⊢
  have := parseExpression_rel S ⟨rfl, .inr rfl⟩ (s := s) (s' := s) (forall2_diag (fun t ht => ⟨rfl, .inl ht⟩))
  cases hp : parseExpression s none with
  | failure e => rw [hp] at h; cases h
  | syntaxError => rw [hp] at h; cases h
  | success n =>
    rw [hp] at h this
    simp only [Outcome.andThen] at h ⊢
    cases this with
    | success hn =>
      cases he : evalArith env d n with
      | error e => rw [he] at h; cases h
      | ok x =>
        rw [he] at h
        rcases hn with hn | ⟨v, v', rfl, hv', hn⟩
        · rw [evalArith_kept hn he]; exact h
        · rw [evalArith] at he ⊢
          rw [he]; exact h

end BoolParser
