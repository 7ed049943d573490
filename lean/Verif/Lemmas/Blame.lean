import Verif.Lemmas.Placed
import Verif.Lemmas.Kept
/-!
# Where DataNotFoundException comes from
-/

namespace BoolParser
open Spec

/-- Does not fail with DataNotFoundException. -/
structure Calm {α : Type} (r : Result α) : Prop where
  out : r ≠ .error .dataNotFound

theorem calm_ok {α : Type} (a : α) : Calm (.ok a : Result α) := ⟨by intro h; cases h⟩
theorem calm_pure {α : Type} (a : α) : Calm (pure a : Result α) := ⟨by intro h; cases h⟩

theorem calm_bind {α β : Type} {r : Result α} {f : α → Result β} (h : Calm r) (hf : ∀ a, Calm (f a)) : Calm (r >>= f) := by
  cases r with
  | error e => exact ⟨fun h' => h.out (by simpa [bind, Except.bind] using h')⟩
  | ok a => exact hf a

theorem calm_toText (v : Value) : Calm (toText v) := by cases v <;> exact ⟨by intro h; cases h⟩

macro "calm1" : tactic => `(tactic| first
  | exact calm_ok _
  | exact calm_pure _
  | exact calm_toText _
  | assumption
  | (refine calm_bind ?_ ?_)
  | (intro _)
  | (refine ⟨?_⟩; intro h; cases h; done)
  | split
  | dsimp only)

macro "calm" : tactic => `(tactic| repeat' calm1)

theorem calm_asString (v : Value) : Calm (asString v) := by unfold asString; calm
theorem calm_asBool (v : Value) : Calm (asBool v) := by unfold asBool; split <;> calm
theorem calm_asDec (v : Value) : Calm (asDec v) := by unfold asDec; split <;> calm
theorem calm_asInt (v : Value) : Calm (asInt v) := by unfold asInt; split <;> calm
theorem calm_asLong (v : Value) : Calm (asLong v) := by unfold asLong; split <;> calm
theorem calm_asVer (v : Value) : Calm (asVer v) := by unfold asVer; split <;> calm
theorem calm_asDate (v : Value) : Calm (asDate v) := by unfold asDate; split <;> calm
theorem calm_asDateTime (v : Value) : Calm (asDateTime v) := by unfold asDateTime; split <;> calm

theorem calm_isValid (t : DataType) (v : Value) : Calm (isValid t v) := by
  cases t
  · exact calm_ok _
  · exact calm_bind (calm_asInt v) fun _ => calm_pure _
  · exact calm_bind (calm_asLong v) fun _ => calm_pure _
  · exact calm_bind (calm_asDec v) fun _ => calm_pure _
  · exact calm_bind (calm_asVer v) fun _ => calm_pure _
  · exact calm_bind (calm_asBool v) fun _ => calm_pure _
  · exact calm_bind (calm_asDate v) fun _ => calm_pure _
  · exact calm_bind (calm_asDateTime v) fun _ => calm_pure _

theorem calm_need {α : Type} {r : Result (Option α)} (h : Calm r) : Calm (need r) := by
  match r, h with
  | .ok (some a), _ => exact calm_ok _
  | .ok none, _ => exact ⟨by intro h; cases h⟩
  | .error e, h => exact ⟨by intro h'; apply h.out; rw [need] at h'; cases h'; rfl⟩

theorem calm_getOpt {α : Type} {r : Result (Option α)} (h : Calm r) : Calm (getOpt r) := by
  match r, h with
  | .ok (some a), _ => exact calm_ok _
  | .ok none, _ => exact ⟨by intro h; cases h⟩
  | .error e, h => exact ⟨by intro h'; apply h.out; rw [getOpt] at h'; cases h'; rfl⟩

theorem calm_both {α : Type} {f : Value → Result (Option α)} (hf : ∀ v, Calm (f v)) (c : α → α → Ordering) (a b : Value) :
    Calm (both f c a b) :=
  calm_bind (calm_need (hf a)) fun _ => calm_bind (calm_need (hf b)) fun _ => calm_pure _

theorem calm_comparePrim (t : DataType) (a b : Value) : Calm (comparePrim t a b) := by
  cases t
  · exact calm_both calm_asString _ _ _
  · exact calm_both calm_asInt _ _ _
  · exact calm_both calm_asLong _ _ _
  · exact calm_both calm_asDec _ _ _
  · exact calm_both calm_asVer _ _ _
  · exact calm_both calm_asBool _ _ _
  · exact calm_both calm_asDate _ _ _
  · exact calm_both calm_asDateTime _ _ _

theorem calm_any {α : Type} {f : α → Result Bool} (hf : ∀ a, Calm (f a)) : (xs : List α) → Calm (anyM' f xs)
  | [] => calm_ok _
  | x :: xs => by
    rw [anyM']
    refine calm_bind (hf x) fun b => ?_
    cases b
    · exact calm_any hf xs
    · exact calm_pure _

theorem calm_all {α : Type} {f : α → Result Bool} (hf : ∀ a, Calm (f a)) : (xs : List α) → Calm (allM' f xs)
  | [] => calm_ok _
  | x :: xs => by
    rw [allM']
    refine calm_bind (hf x) fun b => ?_
    cases b
    · exact calm_pure _
    · exact calm_all hf xs

theorem calm_isValidList (t : DataType) (v : Value) : Calm (isValidList t v) := by
  unfold isValidList
  split
  · exact calm_all (calm_isValid t) _
  · exact calm_ok _

theorem calm_evalEq (op : CmpOp) (l : Value) (lt : DataType) (r : Value) (rt : DataType) : Calm (evalEq op l lt r rt) :=
  calm_bind (calm_comparePrim _ _ _) fun _ => calm_pure _

theorem calm_throw {α : Type} {e : Exn} (h : e ≠ .dataNotFound) : Calm (throw e : Result α) := by
  exact ⟨by intro h'; cases h'; exact h rfl⟩

/-- A test that throws, then the rest. -/
theorem calm_check {α : Type} {c : Bool} {e : Exn} {k : PUnit → Result α} (h : e ≠ .dataNotFound) (hk : ∀ u, Calm (k u)) :
    Calm (if c = true then (throw e : Result PUnit) >>= k else (pure () : Result PUnit) >>= k) := by
  split
  · exact calm_bind (calm_throw h) hk
  · exact calm_bind (calm_pure _) hk

theorem calm_validate (l : Value) (lt : DataType) (r : Value) (rt : DataType) : Calm (validate l lt r rt) := by
  unfold validate
  have h1 := calm_isValid rt l
  have h2 := calm_isValid lt r
  calm

theorem calm_evalCmpOp (op : CmpOp) (l : Value) (lt : DataType) (r : Value) (rt : DataType) :
    Calm (evalCmpOp op l lt r rt) := by
  have ho : ∀ op, Calm (evalOrd op l lt r rt) := fun op =>
    calm_bind (calm_validate _ _ _ _) fun _ => calm_bind (calm_comparePrim _ _ _) fun _ => calm_pure _
  cases op <;> first | exact calm_evalEq _ _ _ _ _ | exact ho _

theorem calm_logicalCmp (op : CmpOp) (l : Value) (lt : DataType) (r : Value) (rt : DataType) :
    Calm (logicalCmp op l lt r rt) := by
  unfold logicalCmp
  have h1 := calm_isValid lt l
  have h2 := calm_evalCmpOp op l lt r rt
  calm

theorem calm_evalIn (l : Value) (lt : DataType) (rs : List Typed) : Calm (evalIn l lt rs) :=
  calm_any (fun _ => calm_evalEq _ _ _ _ _) rs

theorem calm_logicalIn (l : Value) (lt : DataType) (rs : List Typed) : Calm (logicalIn l lt rs) := by
  unfold logicalIn
  have h1 := calm_isValid lt l
  have h2 := calm_evalIn l lt rs
  calm

theorem calm_evalArray (op : ArrOp) (l : Value) (lt : DataType) (rs : List Typed) : Calm (evalArray op l lt rs) := by
  unfold evalArray
  have h1 := calm_isValidList lt l
  have h2 : ∀ f : Typed → Result Bool, (∀ r, Calm (f r)) → Calm (allM' f rs) := fun f hf => calm_all hf rs
  have h3 : ∀ f : Typed → Result Bool, (∀ r, Calm (f r)) → Calm (anyM' f rs) := fun f hf => calm_any hf rs
  refine calm_bind h1 fun b => ?_
  split
  · exact calm_pure _
  · split
    · cases op
      · exact h2 _ fun r => calm_evalIn _ _ _
      · exact h3 _ fun r => calm_evalIn _ _ _
    · exact ⟨by intro h; cases h⟩

theorem calm_logicalArray (op : ArrOp) (l : Value) (lt : DataType) (rs : List Typed) : Calm (logicalArray op l lt rs) := by
  unfold logicalArray
  have h1 := calm_isValidList lt l
  have h2 := calm_evalArray op l lt rs
  calm

theorem calm_castDecimal (d : Dec) : Calm (castDecimal d) := by
  unfold castDecimal intValueExact
  calm

theorem calm_castDouble (d : Dbl) : Calm (castDouble d) := by
  cases d <;> exact ⟨by intro h; cases h⟩

theorem calm_divDown (a b : Dec) (n : Int) : Calm (a.divDown b n) := by
  unfold Dec.divDown
  calm

theorem calm_divExact (a b : Dec) (n : Int) : Calm (a.divExact b n) := by
  unfold Dec.divExact
  calm

theorem calm_evalArithOp (env : Env) (op : ArithOp) (l : Value) (lt : DataType) (r : Value) (rt : DataType) :
    Calm (evalArithOp env op l lt r rt) := by
  have a1 := calm_getOpt (calm_asDec l)
  have a2 := calm_getOpt (calm_asDec r)
  have a3 := calm_getOpt (calm_asLong l)
  have a4 := calm_getOpt (calm_asLong r)
  have a5 := calm_getOpt (calm_asInt l)
  have a6 := calm_getOpt (calm_asInt r)
  unfold evalArithOp
  split
  all_goals repeat' first
    | exact calm_castDouble _
    | exact calm_castDecimal _
    | exact calm_divDown _ _ _
    | calm1

theorem calm_arithBinary (env : Env) (op : ArithOp) (l : Value) (lt : DataType) (r : Value) (rt : DataType) :
    Calm (arithBinary env op l lt r rt) := by
  unfold arithBinary
  have h1 := calm_isValid lt l
  have h2 : Calm (rightValid rt r) := by
    unfold rightValid; split
    · exact calm_ok _
    · exact calm_isValid _ _
  have h3 := calm_evalArithOp env op l lt r rt
  calm

theorem calm_arithNegate (v : Value) (t : DataType) : Calm (arithNegate v t) := by
  unfold arithNegate
  have h1 := calm_isValid t v
  have h2 : Calm (evalNeg v t) := by unfold evalNeg; split <;> calm
  calm

theorem calm_mapGetOpt {α : Type} {f : Value → Result (Option α)} (hf : ∀ v, Calm (f v)) :
    (xs : List Typed) → Calm (mapGetOpt f xs)
  | [] => calm_ok _
  | x :: xs => by
    rw [mapGetOpt]
    exact calm_bind (calm_getOpt (hf _)) fun _ => calm_bind (calm_mapGetOpt hf xs) fun _ => calm_pure _

theorem calm_getAt (xs : List Dec) (i : Nat) : Calm (getAt xs i) := by
  unfold getAt
  calm

theorem calm_evalFn (env : Env) (f : FuncType) (items : List Typed) : Calm (evalFn env f items) := by
  have a1 := calm_mapGetOpt calm_asDec items
  have a2 := calm_mapGetOpt calm_asLong items
  have a3 := calm_mapGetOpt calm_asInt items
  unfold evalFn
  have avg : Calm (avgFn items) := by
    unfold avgFn
    repeat' first | exact calm_castDecimal _ | exact calm_divDown _ _ _ | exact calm_divExact _ _ _ | calm1
  split
  · unfold minFn; repeat' first | exact calm_castDecimal _ | calm1
  · unfold maxFn; repeat' first | exact calm_castDecimal _ | calm1
  · exact avg
  · unfold sumFn; repeat' first | exact calm_castDecimal _ | calm1
  · exact avg
  · unfold modeFn; repeat' first | exact calm_castDecimal _ | calm1
  · unfold medianFn; repeat' first | exact calm_castDecimal _ | exact calm_divDown _ _ _ | exact calm_getAt _ _ | calm1
  · unfold intFn; repeat' first | exact calm_getOpt (calm_asDec _) | calm1
  · unfold lenFn; calm
  · unfold daysFn; calm

theorem calm_validateItems : (items : List Typed) → Calm (validateItems items)
  | [] => calm_ok _
  | x :: xs => by
    rw [validateItems]
    have h1 := calm_isValid x.2 x.1
    have h2 := calm_validateItems xs
    calm

theorem calm_callFn (env : Env) (f : FuncType) (items : List Typed) : Calm (callFn env f items) := by
  unfold callFn
  have h1 := calm_validateItems items
  have h2 := calm_evalFn env f items
  calm

theorem calm_isNullField (n : Node) : Calm n.isNullField := by
  unfold Node.isNullField
  calm

theorem calm_isNullCheck (op : CmpOp) (l r : Node) : Calm (isNullCheck op l r) := by
  unfold isNullCheck
  have h1 := calm_isNullField l
  have h2 := calm_isNullField r
  calm

theorem calm_optOf (v : Value) : Calm (optOf v) := by
  cases v <;> exact ⟨by intro h; cases h⟩

theorem calm_walkKeys : (ks : List JStr) → (d : Data) → Calm (walkKeys ks d)
  | [], _ => ⟨by intro h; rw [walkKeys] at h; cases h⟩
  | [k], d => by rw [walkKeys]; calm
  | k :: k' :: ks, d => by
    rw [walkKeys]
    have ih := calm_walkKeys (k' :: ks)
    split <;> first | exact ih _ | calm

theorem calm_lookup (f : Option JStr) (d : Data) : Calm (lookupField f d) := by
  unfold lookupField
  split
  · exact ⟨by intro h; cases h⟩
  · exact calm_walkKeys _ _


/-! ### The names that can be blamed -/

/-- The names looked up as fields are in `F`, those looked up for a literal or word below NOT or alone in `L`. -/
def VB (F L : JStr → Prop) : Vocab where
  field f _ := F f
  lit dt v _ := dt ≠ .boolean → v ≠ .null → L v.text
  bound _ _ := True
  word dt v _ := dt ≠ .boolean → v ≠ .null → L v.text
  lone v _ := v ≠ .null → L v.text
  fn _ := True
  op _ := True

/-- Some name in `F` has no value. -/
def Blamed (d : Data) (F : JStr → Prop) : Prop := ∃ f, F f ∧ getValueFromMap f d = .ok none

theorem bind_err_inv {α β : Type} {r : Result α} {f : α → Result β} {e : Exn} (h : r >>= f = .error e) :
    r = .error e ∨ ∃ a, r = .ok a ∧ f a = .error e := by
  cases r with
  | error e' => exact .inl (by simpa [bind, Except.bind] using h)
  | ok a => exact .inr ⟨a, rfl, h⟩

variable {env : Env} {d : Data} {F L : JStr → Prop}

theorem requireField_blame {f : JStr} (hf : F f) (h : requireField (some f) d = .error .dataNotFound) : Blamed d F := by
  unfold requireField at h
  rcases bind_err_inv h with h | ⟨o, h1, h2⟩
  · exact absurd h (calm_lookup _ _).out
  · cases o with
    | none => exact ⟨f, hf, h1⟩
    | some v => cases h2

mutual
theorem evalArith_blame : {n n' : Node} → NodeRel (VB F L) n n' → evalArith env d n = .error .dataNotFound → Blamed d F
  | _, _, .cmp _ _ _ _, hv => by simp only [evalArith] at hv; cases hv
  | _, _, .range _ _ _, hv => by simp only [evalArith] at hv; cases hv
  | _, _, .inn _ _, hv => by simp only [evalArith] at hv; cases hv
  | _, _, .array _ _ _, hv => by simp only [evalArith] at hv; cases hv
  | _, _, .unary h, hv => by simp only [evalArith] at hv; cases hv
  | _, _, .and_ _ _, hv => by simp only [evalArith] at hv; cases hv
  | _, _, .or_ _ _, hv => by simp only [evalArith] at hv; cases hv
  | _, _, .not_ _, hv => by simp only [evalArith] at hv; cases hv
  | _, _, .word _, hv => by simp only [evalArith] at hv; cases hv
  | _, _, .nofield, hv => by simp only [evalArith] at hv; cases hv
  | _, _, .field h, hv => by rw [evalArith] at hv; exact requireField_blame h hv
  | _, _, .arith _ hl hr, hv => by
    rw [evalArith] at hv
    rcases bind_err_inv hv with hv | ⟨_, _, hv⟩
    · exact evalArith_blame hl hv
    · rcases bind_err_inv hv with hv | ⟨_, _, hv⟩
      · exact evalArith_blame hr hv
      · exact absurd hv (calm_arithBinary _ _ _ _ _ _).out
  | _, _, .neg h, hv => by
    rw [evalArith] at hv
    rcases bind_err_inv hv with hv | ⟨_, _, hv⟩
    · exact evalArith_blame h hv
    · exact absurd hv (calm_arithNegate _ _).out
  | _, _, .func _ hs, hv => by
    rw [evalArith] at hv
    rcases bind_err_inv hv with hv | ⟨_, _, hv⟩
    · exact evalArithAll_blame hs hv
    · exact absurd hv (calm_callFn _ _ _).out
theorem evalArithAll_blame : {ns ns' : List Node} → NodesRel (VB F L) ns ns' →
    evalArithAll env d ns = .error .dataNotFound → Blamed d F
  | _, _, .nil, hv => by rw [evalArithAll] at hv; cases hv
  | _, _, .cons h hs, hv => by
    rw [evalArithAll] at hv
    rcases bind_err_inv hv with hv | ⟨_, _, hv⟩
    · exact evalArith_blame h hv
    · rcases bind_err_inv hv with hv | ⟨_, _, hv⟩
      · exact evalArithAll_blame hs hv
      · cases hv
end

theorem operandValue_blame {n n' : Node} (h : NodeRel (VB F L) n n') {r : Result Bool} {Q : Prop}
    (hb : n.isArithBase = false → r = .error .dataNotFound → Blamed d F ∨ Q) :
    (operandValue env d n r = .error .dataNotFound → Blamed d F ∨ Q) ∧
    (operandValue env d n r = .ok none → Blamed d F) := by
  have ha := evalArith_blame (env := env) (d := d) h
  cases h with
  | @field f _ h => exact ⟨fun hv => absurd hv (calm_lookup (some f) d).out, fun hv => ⟨f, h, hv⟩⟩
  | nofield => refine ⟨fun hv => ?_, fun hv => ?_⟩ <;> cases hv
  | unary h =>
    refine ⟨fun hv => absurd hv (calm_optOf _).out, fun hv => ?_⟩
    simp only [operandValue, optOf] at hv
    split at hv <;> cases hv
  | arith _ _ _ | neg _ | func _ _ =>
    simp only [operandValue, Node.isArithBase, if_true] at ha ⊢
    refine ⟨fun hv => ?_, fun hv => ?_⟩
    · rcases bind_err_inv hv with hv | ⟨_, _, hv⟩
      · exact .inl (ha hv)
      · exact absurd hv (calm_optOf _).out
    · obtain ⟨a, _, hv⟩ := bind_ok_inv hv
      unfold optOf at hv
      split at hv <;> cases hv
  | _ =>
    simp only [operandValue, Node.isArithBase, Bool.false_eq_true, if_false] at hb ⊢
    refine ⟨fun hv => ?_, fun hv => ?_⟩
    · rcases bind_err_inv hv with hv | ⟨_, _, hv⟩
      · exact hb trivial hv
      · cases hv
    · obtain ⟨a, _, hv⟩ := bind_ok_inv hv
      cases hv

theorem itemValue_blame {n n' : Node} (h : NodeRel (VB F L) n n') {r : Result Bool} {Q : Prop}
    (hb : n.isArithBase = false → r = .error .dataNotFound → Blamed d F ∨ Q)
    (hv : itemValue env d n r = .error .dataNotFound) : Blamed d F ∨ Q := by
  unfold itemValue at hv
  by_cases hc : n.isArithBase = true
  · rw [if_pos hc] at hv; exact .inl (evalArith_blame h hv)
  · rw [if_neg hc] at hv
    rcases bind_err_inv hv with hv | ⟨_, _, hv⟩
    · exact hb (by simpa using hc) hv
    · cases hv

theorem evalUnary_blame {dt : DataType} {v : Value} (h : dt ≠ .boolean → v ≠ .null → L v.text)
    (hv : evalUnary d dt v = .error .dataNotFound) : Blamed d L := by
  unfold evalUnary at hv
  by_cases hb : (dt == .boolean) = true
  · rw [if_pos hb] at hv
    split at hv <;> cases hv
  · rw [if_neg hb] at hv
    have hb' : dt ≠ .boolean := by rintro rfl; exact hb rfl
    rcases bind_err_inv hv with hv | ⟨k, hk, hv⟩
    · exact absurd hv (calm_toText _).out
    · have hn : v ≠ .null := by rintro rfl; cases hk
      have : k = v.text := by
        rw [toText_ok hn] at hk; cases hk; rfl
      subst this
      rcases bind_err_inv hv with hv | ⟨x, _, hv⟩
      · exact requireField_blame (h hb' hn) hv
      · split at hv <;> cases hv

theorem evalComparison_blame {o : CmpOp} {l r : Node} {lv rv : Result (Option Value)} {P : Prop}
    (hl : lv = .error .dataNotFound → P) (hl' : lv = .ok none → P) (hr : rv = .error .dataNotFound → P)
    (hv : evalComparison o l r lv rv = .error .dataNotFound) : P := by
  unfold evalComparison at hv
  rcases bind_err_inv hv with hv | ⟨lo, h1, hv⟩
  · exact hl hv
  rcases bind_err_inv hv with hv | ⟨nc, h2, hv⟩
  · exact absurd hv (calm_isNullCheck _ _ _).out
  rcases bind_err_inv hv with hv | ⟨a, h3, hv⟩
  · split at hv
    · cases hv
    · cases lo with
      | none => exact hl' h1
      | some v => cases hv
  rcases bind_err_inv hv with hv | ⟨a, h3, hv⟩
  · split at hv
    · cases hv
    · rcases bind_err_inv hv with hv | ⟨ro, h4, hv⟩
      · exact hr hv
      · split at hv <;> cases hv
  · exact absurd hv (calm_logicalCmp _ _ _ _ _).out

mutual
theorem evalBool_blame {b : Prop} : {n n' : Node} → NodeRel (VB F L) n n' → Placed b n →
    evalBool env d n = .error .dataNotFound → Blamed d F ∨ (b ∧ Blamed d L)
  | _, _, .cmp (l := l) (r := r) o _ hl hr, hp, hv => by
    cases hp with
    | cmp pl pr =>
      rw [evalBool] at hv
      have h1 := operandValue_blame (env := env) (d := d) hl (r := evalBool env d l) (Q := b ∧ Blamed d L)
        (fun h0 h => evalBool_blame hl (pl h0) h)
      have h2 := operandValue_blame (env := env) (d := d) hr (r := evalBool env d r) (Q := b ∧ Blamed d L)
        (fun h0 h => evalBool_blame hr (pr h0) h)
      exact evalComparison_blame h1.1 (fun h => .inl (h1.2 h)) h2.1 hv
  | _, _, .range h h1 h2, _, hv => by
    rw [evalBool, evalRange] at hv
    rcases bind_err_inv hv with hv | ⟨v, _, hv⟩
    · exact .inl (requireField_blame h hv)
    rcases bind_err_inv hv with hv | ⟨_, _, hv⟩
    · exact absurd hv (calm_logicalCmp _ _ _ _ _).out
    rcases bind_err_inv hv with hv | ⟨_, _, hv⟩
    · exact absurd hv (calm_logicalCmp _ _ _ _ _).out
    · cases hv
  | _, _, .inn h hs, hp, hv => by
    cases hp with
    | inn hp =>
      rw [evalBool] at hv
      rcases bind_err_inv hv with hv | ⟨v, _, hv⟩
      · exact .inl (requireField_blame h hv)
      rcases bind_err_inv hv with hv | ⟨_, _, hv⟩
      · exact evalItems_blame hs hp hv
      · exact absurd hv (calm_logicalIn _ _ _).out
  | _, _, .array _ h hs, hp, hv => by
    cases hp with
    | array hp =>
      rw [evalBool] at hv
      rcases bind_err_inv hv with hv | ⟨v, _, hv⟩
      · exact .inl (requireField_blame h hv)
      rcases bind_err_inv hv with hv | ⟨_, _, hv⟩
      · exact evalItems_blame hs hp hv
      · dsimp only at hv
        split at hv
        · cases hv
        · exact absurd hv (calm_logicalArray _ _ _ _).out
  | _, _, .unary _, hp, _ => by cases hp
  | _, _, .and_ hl hr, hp, hv => by
    cases hp with
    | and_ pl pr =>
      rw [evalBool] at hv
      rcases bind_err_inv hv with hv | ⟨a, _, hv⟩
      · exact evalBool_blame hl pl hv
      · cases a with
        | true => exact evalBool_blame hr pr hv
        | false => cases hv
  | _, _, .or_ hl hr, hp, hv => by
    cases hp with
    | or_ pl pr =>
      rw [evalBool] at hv
      rcases bind_err_inv hv with hv | ⟨a, _, hv⟩
      · exact evalBool_blame hl pl hv
      · cases a with
        | false => exact evalBool_blame hr pr hv
        | true => cases hv
  | _, _, .not_ h, hp, hv => by
    rw [evalBool] at hv
    rcases bind_err_inv hv with hv | ⟨a, _, hv⟩
    · cases hp with
      | not_ hp => exact evalBool_blame h hp hv
      | word hb =>
        rw [evalBool] at hv
        cases h with
        | unary h => exact .inr ⟨hb, evalUnary_blame h hv⟩
    · cases hv
  | _, _, .word h, hp, hv => by
    rw [evalBool, evalBool] at hv
    rcases bind_err_inv hv with hv | ⟨a, _, hv⟩
    · cases hp with
      | not_ hp => cases hp
      | word hb => exact .inr ⟨hb, evalUnary_blame h hv⟩
    · cases hv
  | _, _, .nofield, _, hv => by rw [evalBool] at hv; cases hv
  | _, _, .field _, _, hv => by rw [evalBool] at hv; cases hv
  | _, _, .arith _ _ _, _, hv => by rw [evalBool] at hv; cases hv
  | _, _, .neg _, _, hv => by rw [evalBool] at hv; cases hv
  | _, _, .func _ _, _, hv => by rw [evalBool] at hv; cases hv
theorem evalItems_blame {b : Prop} : {ns ns' : List Node} → NodesRel (VB F L) ns ns' →
    (∀ n ∈ ns, n.isArithBase = false → Placed b n) → evalItems env d ns = .error .dataNotFound →
    Blamed d F ∨ (b ∧ Blamed d L)
  | _, _, .nil, _, hv => by rw [evalItems] at hv; cases hv
  | _, _, .cons h hs, hp, hv => by
    rw [evalItems] at hv
    rcases bind_err_inv hv with hv | ⟨a, _, hv⟩
    · exact itemValue_blame h (fun h0 hx => evalBool_blame h (hp _ (by simp) h0) hx) hv
    · rcases bind_err_inv hv with hv | ⟨a, _, hv⟩
      · exact evalItems_blame hs (fun n hn => hp n (by simp [hn])) hv
      · cases hv
end


/-! ### Whole texts -/

theorem absent_of {f : JStr} (h : getValueFromMap f d = .ok none) : Absent d f := by
  rcases name_cases f with rfl | ⟨ks, hk⟩ | ⟨h0, h1⟩
  · refine .inr ⟨rfl, fun v hv => ?_⟩
    rw [lookup_empty, (mapGet_iff _ _ _).2 hv] at h
    cases v <;> first | rfl | cases h
  · exact .inl ⟨ks, hk, (lookup_none hk d).1 h⟩
  · rw [lookup_dots h0 h1] at h; cases h

/-- The field names in a text and the default field. -/
def FieldNames (ts : List JStr) (df : Option JStr) (f : JStr) : Prop := (f ∈ ts ∧ Classified f .field) ∨ df = some f

theorem name_lit {ts : List JStr} {df : Option JStr} {s v : JStr} (ht : s ∈ ts ∨ s = j!"<EOF>")
    (h : v = s ∨ (∃ q, (q = '\'' ∨ q = '"') ∧ s = q :: (v ++ [q])) ∨ NumberName ts v) :
    FieldNames ts df v ∨ LiteralName ts v := by
  rcases h with rfl | ⟨q, hq, h⟩ | h
  · rcases ht with ht | ht
    · by_cases hc : Classified v .field
      · exact .inl (.inl ⟨ht, hc⟩)
      · exact .inr (.inl ⟨ht, hc⟩)
    · exact .inr (.inr (.inr (.inr ht)))
  · rcases ht with ht | ht
    · exact .inr (.inr (.inl ⟨q, hq, h ▸ ht⟩))
    · rw [ht] at h
      rcases hq with rfl | rfl <;> cases h
  · exact .inr (.inr (.inr (.inl h)))

theorem blame_sim {s : JStr} {ts : List JStr} {df : Option JStr}
    (hs : ∀ t ∈ lex s, t.text ∈ ts ∧ Classified t.text t.kind) :
    Sim (Occurs s) (VB (FieldNames ts df) (fun f => FieldNames ts df f ∨ LiteralName ts f)) df df := by
  have key : ∀ {t : Token}, (t ∈ lex s ∨ t = eofTok) → ∀ {dt : DataType} {v : Value}, (dt = tokType t ∨ dt = .string) →
      convertValue t.text dt = .ok v → dt ≠ .boolean → v ≠ .null → FieldNames ts df v.text ∨ LiteralName ts v.text := by
    intro t ht dt v hd hv hb hn
    rcases ht with ht | rfl
    · exact name_lit (s := t.text) (.inl (hs t ht).1) (convert_name (hs t ht).1 (hs t ht).2 hd hv hb hn)
    · exact name_lit (.inr rfl) (.inl (convert_eofTok hd hv))
  exact {
    kind := fun h => by rw [h.1]
    type := fun h => by rw [h.1]
    field := fun h hk => by
      obtain ⟨rfl, h | rfl⟩ := h
      · have := hs _ h; rw [hk] at this; exact .inl this
      · cases hk
    lit := fun h _ => by
      obtain ⟨rfl, h⟩ := h
      exact RRel.refl_ok (fun v hv hb hn => key h (.inl rfl) hv hb hn)
    bound := fun _ => trivial
    lone := fun h _ _ => by
      obtain ⟨rfl, h⟩ := h
      exact RRel.refl_ok (fun v hv hn => key h (.inr rfl) hv (by decide) hn)
    word := fun h _ => by
      obtain ⟨rfl, h⟩ := h
      exact RRel.refl_ok (fun v hv hb hn => key h (.inl rfl) hv hb hn)
    fn := fun _ _ => trivial
    op := fun _ _ => trivial
    dflt := by
      cases df with
      | none => exact .none
      | some f => exact .some (.inr rfl) }

theorem single_of {s : JStr} {m : Nat} {ks : List TK} (hs : ∀ t ∈ lex s, Classified t.text t.kind) (hl : ks.length ≤ 1)
    (h : kindsOf (lex s) = List.replicate m .lparen ++ ks ++ List.replicate m .rparen) :
    SingleOperand ((lex s).map Token.text) := by
  obtain ⟨a, c, h1, h2, h3⟩ := List.map_eq_append_iff.1 h
  obtain ⟨a, b, rfl, h4, h5⟩ := List.map_eq_append_iff.1 h2
  have paren : ∀ {k : TK} {x : JStr}, (∀ t : JStr, Classified t k → t = x) → ∀ (n : Nat) (l : List Token),
      (∀ t ∈ l, Classified t.text t.kind) → l.map Token.kind = List.replicate n k → l.map Token.text = List.replicate n x := by
    intro k x hx n
    induction n with
    | zero => intro l _ h; simp only [List.replicate_zero, List.map_eq_nil_iff] at h; subst h; rfl
    | succ n ih =>
      intro l hc h
      rw [List.replicate_succ] at h
      obtain ⟨t, l, rfl, ht, hl⟩ := List.map_eq_cons_iff.1 h
      rw [List.map_cons, List.replicate_succ, ih l (fun u hu => hc u (by simp [hu])) hl]
      have := hc t (by simp)
      rw [ht] at this
      rw [hx _ this]
  have hmem : ∀ t ∈ lex s, Classified t.text t.kind := hs
  refine ⟨m, b.map Token.text, ?_, ?_⟩
  · rw [List.length_map, ← List.length_map (f := Token.kind), h5]; exact hl
  · rw [h1, List.map_append, List.map_append,
      paren (k := .lparen) (x := j!"(") ?_ m a (fun t ht => hs t (by rw [h1]; simp [ht])) h4,
      paren (k := .rparen) (x := j!")") ?_ m c (fun t ht => hs t (by rw [h1]; simp [ht])) h3]
    · intro t ht
      have key : ∀ p ∈ tokenTable, p.2 = .rparen → p.1 = j!")" := by decide +kernel
      cases ht with
      | table h => exact key _ h rfl
    · intro t ht
      have key : ∀ p ∈ tokenTable, p.2 = .lparen → p.1 = j!"(" := by decide +kernel
      cases ht with
      | table h => exact key _ h rfl

theorem not_of {s : JStr} (hs : ∀ t ∈ lex s, Classified t.text t.kind) (h : TK.kNot ∈ kindsOf (lex s)) :
    j!"NOT" ∈ (lex s).map Token.text ∨ j!"not" ∈ (lex s).map Token.text := by
  obtain ⟨t, ht, hk⟩ := List.mem_map.1 h
  have key : ∀ p ∈ tokenTable, p.2 = .kNot → p.1 = j!"NOT" ∨ p.1 = j!"not" := by decide +kernel
  have := hs t ht
  rw [hk] at this
  cases this with
  | table h' =>
    rcases key _ h' rfl with h' | h'
    · exact .inl (List.mem_map.2 ⟨t, ht, h'⟩)
    · exact .inr (List.mem_map.2 ⟨t, ht, h'⟩)

theorem evaluate_blame {s : JStr} {df : Option JStr} (hs : ∀ t ∈ lex s, Classified t.text t.kind)
    (h : evaluate env s d df = .failure .dataNotFound) (hp : ∀ e, parseExpression s df = .failure e → e ≠ .dataNotFound) :
    Blamed d (FieldNames ((lex s).map Token.text) df) ∨
    ((j!"NOT" ∈ (lex s).map Token.text ∨ j!"not" ∈ (lex s).map Token.text ∨ SingleOperand ((lex s).map Token.text)) ∧
      Blamed d (fun f => FieldNames ((lex s).map Token.text) df f ∨ LiteralName ((lex s).map Token.text) f)) := by
  have S := blame_sim (s := s) (df := df) (ts := (lex s).map Token.text)
    (fun t ht => ⟨List.mem_map_of_mem ht, hs t ht⟩)
  have := parseExpression_rel S ⟨rfl, .inr rfl⟩ (s := s) (s' := s) (forall2_diag (fun t ht => ⟨rfl, .inl ht⟩))
  unfold evaluate at h
  cases hn : parseExpression s df with
  | failure e => rw [hn] at h; simp only [Outcome.andThen] at h; cases h; exact absurd rfl (hp _ hn)
  | syntaxError => rw [hn] at h; cases h
  | success n =>
    have hpl := parseExpression_placed hn
    rw [hn] at h this
    simp only [Outcome.andThen] at h
    have he : evalBool env d n = .error .dataNotFound := by
      cases he : evalBool env d n with
      | error e => rw [he] at h; cases h; rfl
      | ok x => rw [he] at h; cases h
    cases this with
    | success hr =>
      rcases hpl with hpl | ⟨⟨m, ks, hl, hk⟩, hpl⟩
      · rcases hr with hr | ⟨v, v', rfl, _, _⟩
        · rcases evalBool_blame hr hpl he with hb | ⟨hb, hb'⟩
          · exact .inl hb
          · refine .inr ⟨?_, hb'⟩
            rcases not_of hs hb with h | h
            · exact .inl h
            · exact .inr (.inl h)
        · cases hpl
      · refine .inr ⟨.inr (.inr (single_of hs hl hk)), ?_⟩
        rcases hpl with ⟨v, rfl⟩ | ⟨f, rfl⟩
        · rw [evalBool] at he
          rcases hr with hr | ⟨v, v', hv, _, hr⟩
          · cases hr with
            | unary hr => exact evalUnary_blame hr he
          · cases hv
            exact evalUnary_blame (fun _ hn => hr hn) he
        · rw [evalBool] at he; cases he

theorem evaluateArith_blame {s : JStr} (hs : ∀ t ∈ lex s, Classified t.text t.kind)
    (h : evaluateArith env s d = .failure .dataNotFound) (hp : ∀ e, parseExpression s none = .failure e → e ≠ .dataNotFound) :
    Blamed d (FieldNames ((lex s).map Token.text) none) := by
  have S := blame_sim (s := s) (df := none) (ts := (lex s).map Token.text)
    (fun t ht => ⟨List.mem_map_of_mem ht, hs t ht⟩)
  have := parseExpression_rel S ⟨rfl, .inr rfl⟩ (s := s) (s' := s) (forall2_diag (fun t ht => ⟨rfl, .inl ht⟩))
  unfold evaluateArith at h
  cases hn : parseExpression s none with
  | failure e => rw [hn] at h; simp only [Outcome.andThen] at h; cases h; exact absurd rfl (hp _ hn)
  | syntaxError => rw [hn] at h; cases h
  | success n =>
    rw [hn] at h this
    simp only [Outcome.andThen] at h
    have he : evalArith env d n = .error .dataNotFound := by
      cases he : evalArith env d n with
      | error e => rw [he] at h; cases h; rfl
      | ok x => rw [he] at h; cases h
    cases this with
    | success hr =>
      rcases hr with hr | ⟨v, v', rfl, _, _⟩
      · exact evalArith_blame hr he
      · rw [evalArith] at he; cases he

end BoolParser
