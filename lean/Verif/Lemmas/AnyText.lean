import Verif.Lemmas.RecoveryFrom
import Verif.Lemmas.Kept
import Verif.Lemmas.Blame
/-!
# Evaluating any text
-/

namespace BoolParser
open Spec

variable {env env' : Env} {d d' : Data} {df : Option JStr} {s : JStr}

/-! ### Two maps or two environments -/

theorem tok_self {strict : Bool} {t : Token} (hg : getValueFromMap t.text d = getValueFromMap t.text d')
    (hc : ∀ dt v, (dt = tokType t ∨ dt = .string) → convertValue t.text dt = .ok v → dt ≠ .boolean → v ≠ .null →
      getValueFromMap v.text d = getValueFromMap v.text d') (he : TokEnv env env' t) : TokSelf (V0 env env' d d' strict) t where
  field _ := ⟨hg, rfl⟩
  lit v hv := ⟨rfl, evalUnary_agree (hc _ v (.inl rfl) hv)⟩
  word v hv := evalUnary_agree (hc _ v (.inl rfl) hv)
  lone v hv := ⟨evalUnary_agree (hc _ v (.inr rfl) hv), fun _ => rfl⟩
  fn := he.1
  op := he.2

theorem evaluateAny_tok (hdf : ∀ f, df = some f → getValueFromMap f d = getValueFromMap f d')
    (he : TokSelf (V0 env env' d d' false) eofTok) (hs : ∀ t ∈ lex s, TokSelf (V0 env env' d d' false) t) :
    evaluateAny env s d df = evaluateAny env' s d' df := by
  unfold evaluateAny
  cases hp : parseAny s df with
  | error e => rfl
  | ok n =>
    rw [ok_bind, ok_bind]
    have E := V0_sim env env' d d' false
    rcases parseAny_self (V := V0 env env' d d' false) ⟨fun _ => rfl, fun f hf => ⟨hdf f hf, rfl⟩⟩ he hs hp with
      h | ⟨v, v', rfl, h', h⟩
    · exact evalBool_sim E h
    · cases h'; rw [evalBool, evalBool, E.lone h]

theorem evaluateArithAny_tok
    (he : TokSelf (V0 env env' d d' false) eofTok) (hs : ∀ t ∈ lex s, TokSelf (V0 env env' d d' false) t) :
    evaluateArithAny env s d = evaluateArithAny env' s d' := by
  unfold evaluateArithAny
  cases hp : parseAny s none with
  | error e => rfl
  | ok n =>
    rw [ok_bind, ok_bind]
    have E := V0_sim env env' d d' false
    rcases parseAny_self (V := V0 env env' d d' false) (df := none) ⟨fun _ => rfl, fun f hf => by cases hf⟩ he hs hp with
      h | ⟨v, v', rfl, h', h⟩
    · exact evalArith_sim E h
    · cases h'; rw [evalArith, evalArith]

/-! ### More data -/

theorem tok_keptSelf {t : Token} (hf : t.kind = .field → (lower t.text == j!"null") = false)
    (hk : ∀ v, getValueFromMap t.text d = .ok (some v) → getValueFromMap t.text d' = .ok (some v))
    (hc : ∀ dt v, (dt = tokType t ∨ dt = .string) → convertValue t.text dt = .ok v →
      dt ≠ .boolean → v ≠ .null → ∀ w, getValueFromMap v.text d = .ok (some w) → getValueFromMap v.text d' = .ok (some w)) :
    TokSelf (V1 d d') t where
  field h := ⟨rfl, hk, hf h⟩
  lit v hv := ⟨rfl, fun _ he => evalUnary_kept (hc _ v (.inl rfl) hv) he⟩
  word v hv := ⟨rfl, fun _ he => evalUnary_kept (hc _ v (.inl rfl) hv) he⟩
  lone v hv := ⟨rfl, fun _ he => evalUnary_kept (hc _ v (.inr rfl) hv) he⟩
  fn _ _ := trivial
  op _ _ := trivial

theorem evaluateAny_kept (hdf : ∀ f, df = some f → (V1 d d').field f f) (he : TokSelf (V1 d d') eofTok)
    (hs : ∀ t ∈ lex s, TokSelf (V1 d d') t) {b : Bool} (h : evaluateAny env s d df = .ok b) :
    evaluateAny env s d' df = .ok b := by
  unfold evaluateAny at h ⊢
  obtain ⟨n, hp, h⟩ := bind_ok_inv h
  rw [hp, ok_bind]
  rcases parseAny_self (V := V1 d d') ⟨fun _ => rfl, hdf⟩ he hs hp with hn | ⟨v, v', rfl, h', hn⟩
  · exact evalBool_kept hn h
  · rw [evalBool] at h ⊢; exact hn.2 _ h

theorem evaluateArithAny_kept (he : TokSelf (V1 d d') eofTok)
    (hs : ∀ t ∈ lex s, TokSelf (V1 d d') t) {v : Value} (h : evaluateArithAny env s d = .ok v) :
    evaluateArithAny env s d' = .ok v := by
  unfold evaluateArithAny at h ⊢
  obtain ⟨n, hp, h⟩ := bind_ok_inv h
  rw [hp, ok_bind]
  rcases parseAny_self (V := V1 d d') (df := none) ⟨fun _ => rfl, fun f hf => by cases hf⟩ he hs hp with
    hn | ⟨v, v', rfl, h', hn⟩
  · exact evalArith_kept hn h
  · rw [evalArith] at h ⊢; exact h

/-! ### Missing data -/

variable {F L G : JStr → Prop}

mutual
theorem evalBool_blames : {n n' : Node} → NodeRel (VB G G) n n' → evalBool env d n = .error .dataNotFound → Blamed d G
  | _, _, .cmp (l := l) (r := r) o _ hl hr, hv => by
    rw [evalBool] at hv
    have h1 := operandValue_blame (env := env) (d := d) hl (r := evalBool env d l) (Q := Blamed d G)
      (fun _ h => .inl (evalBool_blames hl h))
    have h2 := operandValue_blame (env := env) (d := d) hr (r := evalBool env d r) (Q := Blamed d G)
      (fun _ h => .inl (evalBool_blames hr h))
    exact evalComparison_blame (fun h => (h1.1 h).elim id id) h1.2 (fun h => (h2.1 h).elim id id) hv
  | _, _, .range h h1 h2, hv => by
    rw [evalBool, evalRange] at hv
    rcases bind_err_inv hv with hv | ⟨v, _, hv⟩
    · exact requireField_blame h hv
    rcases bind_err_inv hv with hv | ⟨_, _, hv⟩
    · exact absurd hv (calm_logicalCmp _ _ _ _ _).out
    rcases bind_err_inv hv with hv | ⟨_, _, hv⟩
    · exact absurd hv (calm_logicalCmp _ _ _ _ _).out
    · cases hv
  | _, _, .inn h hs, hv => by
    rw [evalBool] at hv
    rcases bind_err_inv hv with hv | ⟨v, _, hv⟩
    · exact requireField_blame h hv
    rcases bind_err_inv hv with hv | ⟨_, _, hv⟩
    · exact evalItems_blames hs hv
    · exact absurd hv (calm_logicalIn _ _ _).out
  | _, _, .array _ h hs, hv => by
    rw [evalBool] at hv
    rcases bind_err_inv hv with hv | ⟨v, _, hv⟩
    · exact requireField_blame h hv
    rcases bind_err_inv hv with hv | ⟨_, _, hv⟩
    · exact evalItems_blames hs hv
    · dsimp only at hv
      split at hv
      · cases hv
      · exact absurd hv (calm_logicalArray _ _ _ _).out
  | _, _, .unary h, hv => by rw [evalBool] at hv; exact evalUnary_blame h hv
  | _, _, .and_ hl hr, hv => by
    rw [evalBool] at hv
    rcases bind_err_inv hv with hv | ⟨a, _, hv⟩
    · exact evalBool_blames hl hv
    · cases a with
      | true => exact evalBool_blames hr hv
      | false => cases hv
  | _, _, .or_ hl hr, hv => by
    rw [evalBool] at hv
    rcases bind_err_inv hv with hv | ⟨a, _, hv⟩
    · exact evalBool_blames hl hv
    · cases a with
      | false => exact evalBool_blames hr hv
      | true => cases hv
  | _, _, .not_ h, hv => by
    rw [evalBool] at hv
    rcases bind_err_inv hv with hv | ⟨a, _, hv⟩
    · exact evalBool_blames h hv
    · cases hv
  | _, _, .word h, hv => by
    rw [evalBool, evalBool] at hv
    rcases bind_err_inv hv with hv | ⟨a, _, hv⟩
    · exact evalUnary_blame h hv
    · cases hv
  | _, _, .nofield, hv => by rw [evalBool] at hv; cases hv
  | _, _, .field _, hv => by rw [evalBool] at hv; cases hv
  | _, _, .arith _ _ _, hv => by rw [evalBool] at hv; cases hv
  | _, _, .neg _, hv => by rw [evalBool] at hv; cases hv
  | _, _, .func _ _, hv => by rw [evalBool] at hv; cases hv
theorem evalItems_blames : {ns ns' : List Node} → NodesRel (VB G G) ns ns' →
    evalItems env d ns = .error .dataNotFound → Blamed d G
  | _, _, .nil, hv => by rw [evalItems] at hv; cases hv
  | _, _, .cons h hs, hv => by
    rw [evalItems] at hv
    rcases bind_err_inv hv with hv | ⟨a, _, hv⟩
    · exact (itemValue_blame h (Q := Blamed d G) (fun _ hx => .inl (evalBool_blames h hx)) hv).elim id id
    · rcases bind_err_inv hv with hv | ⟨a, _, hv⟩
      · exact evalItems_blames hs hv
      · cases hv
end

theorem evaluateAny_blame (hdf : ∀ f, df = some f → G f) (he : TokSelf (VB G G) eofTok)
    (hs : ∀ t ∈ lex s, TokSelf (VB G G) t) (hp : parseAny s df ≠ .error .dataNotFound)
    (h : evaluateAny env s d df = .error .dataNotFound) : Blamed d G := by
  unfold evaluateAny at h
  rcases bind_err_inv h with h | ⟨n, hn, h⟩
  · exact absurd h hp
  · rcases parseAny_self (V := VB G G) ⟨fun _ => trivial, hdf⟩ he hs hn with hr | ⟨v, v', rfl, _, hr⟩
    · exact evalBool_blames hr h
    · rw [evalBool] at h; exact evalUnary_blame (fun _ hn => hr hn) h

theorem evaluateArithAny_blame (he : TokSelf (VB F L) eofTok)
    (hs : ∀ t ∈ lex s, TokSelf (VB F L) t) (hp : parseAny s none ≠ .error .dataNotFound)
    (h : evaluateArithAny env s d = .error .dataNotFound) : Blamed d F := by
  unfold evaluateArithAny at h
  rcases bind_err_inv h with h | ⟨n, hn, h⟩
  · exact absurd h hp
  · rcases parseAny_self (V := VB F L) (df := none) ⟨fun _ => trivial, fun f hf => by cases hf⟩ he hs hn with
      hr | ⟨v, v', rfl, _, hr⟩
    · exact evalArith_blame hr h
    · rw [evalArith] at h; cases h

end BoolParser
