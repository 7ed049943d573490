import Verif.Lemmas.WordingEval
/-!
# Exceptions of the library carry a message, others do not (for C101)
-/

namespace BoolParser
open Spec

/-- Does not fail with an exception of the library. -/
structure Foreign {α : Type} (r : Result α) : Prop where
  out : ∀ e, r = .error e → ¬ OfLibrary e

theorem foreign_ok {α : Type} (a : α) : Foreign (.ok a : Result α) := ⟨by intro e h; cases h⟩
theorem foreign_pure {α : Type} (a : α) : Foreign (pure a : Result α) := ⟨by intro e h; cases h⟩

theorem foreign_bind {α β : Type} {r : Result α} {f : α → Result β} (h : Foreign r) (hf : ∀ a, Foreign (f a)) :
    Foreign (r >>= f) := by
  cases r with
  | error e => exact ⟨fun e' h' => h.out e' (by simpa [bind, Except.bind] using h')⟩
  | ok a => exact hf a

theorem foreign_toText (v : Value) : Foreign (toText v) := by cases v <;> exact ⟨by intro e h; cases h; try decide⟩

macro "foreign1" : tactic => `(tactic| first
  | exact foreign_ok _
  | exact foreign_pure _
  | exact foreign_toText _
  | assumption
  | (refine foreign_bind ?_ ?_)
  | (intro _)
  | (refine ⟨?_⟩; intro e h; cases h; decide)
  | split
  | dsimp only)

macro "foreign" : tactic => `(tactic| repeat' foreign1)

theorem foreign_asString (v : Value) : Foreign (asString v) := by unfold asString; foreign
theorem foreign_asBool (v : Value) : Foreign (asBool v) := by unfold asBool; split <;> foreign
theorem foreign_asDec (v : Value) : Foreign (asDec v) := by unfold asDec; split <;> foreign
theorem foreign_asInt (v : Value) : Foreign (asInt v) := by unfold asInt; split <;> foreign
theorem foreign_asLong (v : Value) : Foreign (asLong v) := by unfold asLong; split <;> foreign
theorem foreign_asVer (v : Value) : Foreign (asVer v) := by unfold asVer; split <;> foreign
theorem foreign_asDate (v : Value) : Foreign (asDate v) := by unfold asDate; split <;> foreign
theorem foreign_asDateTime (v : Value) : Foreign (asDateTime v) := by unfold asDateTime; split <;> foreign

theorem foreign_isValid (t : DataType) (v : Value) : Foreign (isValid t v) := by
  cases t
  · exact foreign_ok _
  · exact foreign_bind (foreign_asInt v) fun _ => foreign_pure _
  · exact foreign_bind (foreign_asLong v) fun _ => foreign_pure _
  · exact foreign_bind (foreign_asDec v) fun _ => foreign_pure _
  · exact foreign_bind (foreign_asVer v) fun _ => foreign_pure _
  · exact foreign_bind (foreign_asBool v) fun _ => foreign_pure _
  · exact foreign_bind (foreign_asDate v) fun _ => foreign_pure _
  · exact foreign_bind (foreign_asDateTime v) fun _ => foreign_pure _

theorem foreign_getOpt {α : Type} {r : Result (Option α)} (h : Foreign r) : Foreign (getOpt r) := by
  match r, h with
  | .ok (some a), _ => exact foreign_ok _
  | .ok none, _ => exact ⟨by intro e h; cases h; decide⟩
  | .error e, h => exact ⟨by intro e' h'; rw [getOpt] at h'; cases h'; exact h.out e rfl⟩

theorem foreign_all {α : Type} {f : α → Result Bool} (hf : ∀ a, Foreign (f a)) : (xs : List α) → Foreign (allM' f xs)
  | [] => foreign_ok _
  | x :: xs => by
    rw [allM']
    refine foreign_bind (hf x) fun b => ?_
    cases b
    · exact foreign_pure _
    · exact foreign_all hf xs

theorem foreign_isValidList (t : DataType) (v : Value) : Foreign (isValidList t v) := by
  unfold isValidList
  split
  · exact foreign_all (foreign_isValid t) _
  · exact foreign_ok _

theorem foreign_rightValid (t : DataType) (v : Value) : Foreign (rightValid t v) := by
  unfold rightValid; split
  · exact foreign_ok _
  · exact foreign_isValid _ _

theorem foreign_castDecimal (d : Dec) : Foreign (castDecimal d) := by
  unfold castDecimal intValueExact
  foreign

theorem foreign_castDouble (d : Dbl) : Foreign (castDouble d) := by
  cases d <;> exact ⟨by intro e h; cases h; try decide⟩

theorem foreign_divDown (a b : Dec) (n : Int) : Foreign (a.divDown b n) := by
  unfold Dec.divDown
  foreign

theorem foreign_divExact (a b : Dec) (n : Int) : Foreign (a.divExact b n) := by
  unfold Dec.divExact
  foreign

theorem foreign_evalArithOp (env : Env) (op : ArithOp) (l : Value) (lt : DataType) (r : Value) (rt : DataType) :
    Foreign (evalArithOp env op l lt r rt) := by
  have a1 := foreign_getOpt (foreign_asDec l)
  have a2 := foreign_getOpt (foreign_asDec r)
  have a3 := foreign_getOpt (foreign_asLong l)
  have a4 := foreign_getOpt (foreign_asLong r)
  have a5 := foreign_getOpt (foreign_asInt l)
  have a6 := foreign_getOpt (foreign_asInt r)
  unfold evalArithOp
  split
  all_goals repeat' first
    | exact foreign_castDouble _
    | exact foreign_castDecimal _
    | exact foreign_divDown _ _ _
    | foreign1

theorem foreign_evalNeg (v : Value) (t : DataType) : Foreign (evalNeg v t) := by unfold evalNeg; split <;> foreign

theorem foreign_mapGetOpt {α : Type} {f : Value → Result (Option α)} (hf : ∀ v, Foreign (f v)) :
    (xs : List Typed) → Foreign (mapGetOpt f xs)
  | [] => foreign_ok _
  | x :: xs => by
    rw [mapGetOpt]
    exact foreign_bind (foreign_getOpt (hf _)) fun _ => foreign_bind (foreign_mapGetOpt hf xs) fun _ => foreign_pure _

theorem foreign_getAt (xs : List Dec) (i : Nat) : Foreign (getAt xs i) := by
  unfold getAt
  foreign

theorem foreign_evalFn (env : Env) (f : FuncType) (hf : f ≠ .daysElapsed) (items : List Typed) : Foreign (evalFn env f items) := by
  have a1 := foreign_mapGetOpt foreign_asDec items
  have a2 := foreign_mapGetOpt foreign_asLong items
  have a3 := foreign_mapGetOpt foreign_asInt items
  unfold evalFn
  have avg : Foreign (avgFn items) := by
    unfold avgFn
    repeat' first | exact foreign_castDecimal _ | exact foreign_divDown _ _ _ | exact foreign_divExact _ _ _ | foreign1
  split
  · unfold minFn; repeat' first | exact foreign_castDecimal _ | foreign1
  · unfold maxFn; repeat' first | exact foreign_castDecimal _ | foreign1
  · exact avg
  · unfold sumFn; repeat' first | exact foreign_castDecimal _ | foreign1
  · exact avg
  · unfold modeFn; repeat' first | exact foreign_castDecimal _ | foreign1
  · unfold medianFn; repeat' first | exact foreign_castDecimal _ | exact foreign_divDown _ _ _ | exact foreign_getAt _ _ | foreign1
  · unfold intFn; repeat' first | exact foreign_getOpt (foreign_asDec _) | foreign1
  · unfold lenFn; foreign
  · exact absurd rfl hf

theorem foreign_isNullField (n : Node) : Foreign n.isNullField := by
  unfold Node.isNullField
  foreign

theorem foreign_isNullCheck (op : CmpOp) (l r : Node) : Foreign (isNullCheck op l r) := by
  unfold isNullCheck
  have h1 := foreign_isNullField l
  have h2 := foreign_isNullField r
  foreign

theorem foreign_optOf (v : Value) : Foreign (optOf v) := by
  cases v <;> exact ⟨by intro e h; cases h; try decide⟩

theorem foreign_walkKeys : (ks : List JStr) → (d : Data) → Foreign (walkKeys ks d)
  | [], _ => ⟨by intro e h; rw [walkKeys] at h; cases h; try decide⟩
  | [k], d => by rw [walkKeys]; foreign
  | k :: k' :: ks, d => by
    rw [walkKeys]
    have ih := foreign_walkKeys (k' :: ks)
    split <;> first | exact ih _ | foreign

theorem foreign_lookup (f : Option JStr) (d : Data) : Foreign (lookupField f d) := by
  unfold lookupField
  split
  · exact ⟨by intro e h; cases h; decide⟩
  · exact foreign_walkKeys _ _

/-! ### Evaluations -/

/-- A failure has a message if and only if the exception is the library's. -/
structure HonestX {α : Type} (m : Told α) : Prop where
  out : ∀ f, m = .error f → (f.message.isSome = true ↔ OfLibrary f.exn)

variable {α β : Type}

theorem told_ok (a : α) : HonestX (.ok a : Told α) := ⟨by intro f h; cases h⟩
theorem told_pure (a : α) : HonestX (pure a : Told α) := ⟨by intro f h; cases h⟩

theorem told_tell {e : Exn} (h : OfLibrary e) (m : JStr) : HonestX (tell e m : Told α) :=
  ⟨by intro f hf; cases hf; exact ⟨fun _ => h, fun _ => rfl⟩⟩

theorem told_bare {r : Result α} (h : Foreign r) : HonestX (bare r) := by
  cases r with
  | ok a => exact told_ok a
  | error e =>
    refine ⟨?_⟩
    intro f hf; cases hf
    exact ⟨fun h => (by cases h), fun h' => absurd h' (h.out e rfl)⟩

theorem told_bind {m : Told α} {f : α → Told β} (h : HonestX m) (hf : ∀ a, m = .ok a → HonestX (f a)) : HonestX (m >>= f) := by
  cases m with
  | error e => exact ⟨fun e' h' => h.out e' (by simpa [bind, Except.bind] using h')⟩
  | ok a => exact hf a rfl

theorem told_ite {c : Prop} [Decidable c] {a b : Told α} (ha : HonestX a) (hb : HonestX b) : HonestX (if c then a else b) := by
  split
  · exact ha
  · exact hb

theorem told_need {u : DataType} {v : Value} {r : Result (Option α)} (h : Foreign r) : HonestX (needX u v r) := by
  match r, h with
  | .ok (some a), _ => exact told_ok _
  | .ok none, _ => exact told_tell (by decide) _
  | .error e, h => exact told_bare (r := (.error e : Result α)) ⟨fun e' h' => h.out e' (by cases h'; rfl)⟩

theorem told_both {u : DataType} {f : Value → Result (Option α)} (hf : ∀ v, Foreign (f v)) (c : α → α → Ordering) (a b : Value) :
    HonestX (bothX u f c a b) :=
  told_bind (told_need (hf a)) fun _ _ => told_bind (told_need (hf b)) fun _ _ => told_pure _

theorem told_comparePrim (u : DataType) (a b : Value) : HonestX (comparePrimX u a b) := by
  cases u
  · exact told_both foreign_asString _ _ _
  · exact told_both foreign_asInt _ _ _
  · exact told_both foreign_asLong _ _ _
  · exact told_both foreign_asDec _ _ _
  · exact told_both foreign_asVer _ _ _
  · exact told_both foreign_asBool _ _ _
  · exact told_both foreign_asDate _ _ _
  · exact told_both foreign_asDateTime _ _ _

theorem told_evalEq (op : CmpOp) (l : Value) (lt : DataType) (r : Value) (rt : DataType) : HonestX (evalEqX op l lt r rt) :=
  told_bind (told_comparePrim _ _ _) fun _ _ => told_pure _

theorem told_validate (l : Value) (lt : DataType) (r : Value) (rt : DataType) : HonestX (validateX l lt r rt) := by
  rw [validateX_eq]
  split
  · exact told_bind (told_bare (foreign_isValid _ _)) fun _ _ => told_ite (told_tell (by decide) _) (told_ok _)
  · exact told_bind (told_bare (foreign_isValid _ _)) fun _ _ => told_ite (told_tell (by decide) _) (told_ok _)
  · exact told_ok _

theorem told_evalCmpOp (op : CmpOp) (l : Value) (lt : DataType) (r : Value) (rt : DataType) :
    HonestX (evalCmpOpX op l lt r rt) := by
  have ho : ∀ op, HonestX (evalOrdX op l lt r rt) := fun op =>
    told_bind (told_validate _ _ _ _) fun _ _ => told_bind (told_comparePrim _ _ _) fun _ _ => told_pure _
  cases op <;> first | exact told_evalEq _ _ _ _ _ | exact ho _

theorem told_logicalCmp (op : CmpOp) (l : Value) (lt : DataType) (r : Value) (rt : DataType) :
    HonestX (logicalCmpX op l lt r rt) := by
  rw [logicalCmpX_eq]
  exact told_ite (told_tell (by decide) _) (told_bind (told_bare (foreign_isValid _ _)) fun _ _ =>
    told_ite (told_tell (by decide) _) (told_ite (told_tell (by decide) _) (told_evalCmpOp _ _ _ _ _)))

theorem told_any {f : α → Told Bool} (hf : ∀ a, HonestX (f a)) : (xs : List α) → HonestX (anyMX f xs)
  | [] => told_ok _
  | x :: xs => by
    rw [anyMX]
    exact told_bind (hf x) fun b _ => told_ite (told_pure _) (told_any hf xs)

theorem told_all {f : α → Told Bool} (hf : ∀ a, HonestX (f a)) : (xs : List α) → HonestX (allMX f xs)
  | [] => told_ok _
  | x :: xs => by
    rw [allMX]
    exact told_bind (hf x) fun b _ => told_ite (told_all hf xs) (told_pure _)

theorem told_evalIn (l : Value) (lt : DataType) (rs : List Typed) : HonestX (evalInX l lt rs) :=
  told_any (fun _ => told_evalEq _ _ _ _ _) rs

theorem told_logicalIn (l : Value) (lt : DataType) (rs : List Typed) : HonestX (logicalInX l lt rs) := by
  rw [logicalInX_eq]
  exact told_bind (told_bare (foreign_isValid _ _)) fun _ _ => told_ite (told_tell (by decide) _) (told_evalIn _ _ _)

theorem told_foreign {e : Exn} (h : ¬ OfLibrary e) : HonestX (.error ⟨e, none⟩ : Told α) :=
  ⟨by intro f hf; cases hf; exact ⟨fun h => (by cases h), fun h' => absurd h' h⟩⟩

theorem told_evalArray (op : ArrOp) (l : Value) (lt : DataType) (rs : List Typed) : HonestX (evalArrayX op l lt rs) := by
  unfold evalArrayX
  refine told_bind (told_bare (foreign_isValidList _ _)) fun b _ => ?_
  split
  · exact told_pure _
  · split
    · cases op
      · exact told_all (fun r => told_evalIn _ _ _) rs
      · exact told_any (fun r => told_evalIn _ _ _) rs
    · exact told_foreign (by decide)

theorem told_logicalArray (op : ArrOp) (l : Value) (lt : DataType) (rs : List Typed) : HonestX (logicalArrayX op l lt rs) := by
  rw [logicalArrayX_eq]
  exact told_bind (told_bare (foreign_isValidList _ _)) fun _ _ =>
    told_ite (told_tell (by decide) _) (told_evalArray _ _ _ _)

theorem told_arithBinary (env : Env) (op : ArithOp) (l : Value) (lt : DataType) (r : Value) (rt : DataType) :
    HonestX (arithBinaryX env op l lt r rt) := by
  rw [arithBinaryX_eq]
  exact told_ite (told_tell (by decide) _) (told_bind (told_bare (foreign_isValid _ _)) fun _ _ =>
    told_ite (told_tell (by decide) _) (told_ite (told_tell (by decide) _)
      (told_bind (told_bare (foreign_rightValid _ _)) fun _ _ => told_ite (told_tell (by decide) _)
        (told_bare (foreign_evalArithOp _ _ _ _ _ _)))))

theorem told_arithNegate (v : Value) (t : DataType) : HonestX (arithNegateX v t) := by
  rw [arithNegateX_eq]
  exact told_ite (told_tell (by decide) _) (told_bind (told_bare (foreign_isValid _ _)) fun _ _ =>
    told_ite (told_tell (by decide) _) (told_bare (foreign_evalNeg _ _)))

theorem told_validateItems (f : FuncType) : (xs : List Typed) → HonestX (validateItemsX f xs)
  | [] => told_ok _
  | x :: xs => by
    rw [validateItemsX_cons]
    exact told_bind (told_bare (foreign_isValid _ _)) fun _ _ =>
      told_ite (told_tell (by decide) _) (told_validateItems f xs)

theorem told_evalFn (env : Env) (f : FuncType) (items : List Typed) : HonestX (evalFnX env f items) := by
  by_cases hf : f = .daysElapsed
  · subst hf
    show HonestX (daysFnX env items)
    unfold daysFnX
    split
    · exact told_ok _
    · split
      · exact told_ok _
      · exact told_tell (by decide) _
    · exact told_foreign (by decide)
    · exact told_tell (by decide) _
    · exact told_tell (by decide) _
  · have : evalFnX env f items = bare (evalFn env f items) := by
      cases f <;> first | rfl | exact absurd rfl hf
    rw [this]
    exact told_bare (foreign_evalFn env f hf items)

theorem told_callFn (env : Env) (f : FuncType) (items : List Typed) : HonestX (callFnX env f items) := by
  rw [callFnX_eq]
  exact told_ite (told_tell (by decide) _) (told_ite (told_tell (by decide) _) (told_ite (told_tell (by decide) _)
    (told_bind (told_validateItems f items) fun _ _ => told_evalFn env f items)))

theorem told_requireField (f : Option JStr) (d : Data) : HonestX (requireFieldX f d) := by
  refine told_bind (told_bare (foreign_lookup f d)) fun o _ => ?_
  cases o
  · exact told_tell (by decide) _
  · exact told_pure _

mutual
theorem told_evalArith (env : Env) (d : Data) : (n : Node) → HonestX (evalArithX env d n)
  | .arith op l r => by
    rw [evalArithX]
    exact told_bind (told_evalArith env d l) fun _ _ => told_bind (told_evalArith env d r) fun _ _ => told_arithBinary _ _ _ _ _ _
  | .neg l => by
    rw [evalArithX]
    exact told_bind (told_evalArith env d l) fun _ _ => told_arithNegate _ _
  | .func f items => by
    rw [evalArithX]
    exact told_bind (told_evalArithAll env d items) fun _ _ => told_callFn _ _ _
  | .unary _ v => by rw [evalArithX]; exact told_ok _
  | .field f => by rw [evalArithX]; exact told_requireField _ _
  | .cmp .. => by rw [evalArithX] <;> first | exact told_tell (by decide) _ | (intros; contradiction)
  | .range .. => by rw [evalArithX] <;> first | exact told_tell (by decide) _ | (intros; contradiction)
  | .inn .. => by rw [evalArithX] <;> first | exact told_tell (by decide) _ | (intros; contradiction)
  | .array .. => by rw [evalArithX] <;> first | exact told_tell (by decide) _ | (intros; contradiction)
  | .and_ .. => by rw [evalArithX] <;> first | exact told_tell (by decide) _ | (intros; contradiction)
  | .or_ .. => by rw [evalArithX] <;> first | exact told_tell (by decide) _ | (intros; contradiction)
  | .not_ .. => by rw [evalArithX] <;> first | exact told_tell (by decide) _ | (intros; contradiction)
theorem told_evalArithAll (env : Env) (d : Data) : (ns : List Node) → HonestX (evalArithAllX env d ns)
  | [] => by rw [evalArithAllX]; exact told_ok _
  | n :: ns => by
    rw [evalArithAllX]
    exact told_bind (told_evalArith env d n) fun _ _ => told_bind (told_evalArithAll env d ns) fun _ _ => told_pure _
end

theorem told_operand (env : Env) (d : Data) (n : Node) {b : Told Bool} (hb : HonestX b) : HonestX (operandValueX env d n b) := by
  have h1 : HonestX (evalArithX env d n >>= fun v => bare (optOf v)) :=
    told_bind (told_evalArith env d n) fun _ _ => told_bare (foreign_optOf _)
  have h2 : HonestX (b >>= fun y => (pure (some (.bool y)) : Told (Option Value))) := told_bind hb fun _ _ => told_pure _
  unfold operandValueX
  split
  · exact told_bare (foreign_lookup _ _)
  · exact told_bare (foreign_optOf _)
  · exact told_ite h1 h2

theorem operandX_none {env : Env} {d : Data} {n : Node} {b : Told Bool} (h : operandValueX env d n b = .ok none) :
    ∃ f, n = .field f := by
  have h1 : ∀ m : Told Value, (m >>= fun v => bare (optOf v)) ≠ .ok none := by
    intro m hm
    cases m with
    | error e => cases hm
    | ok v => cases v <;> cases hm
  have h2 : ∀ m : Told Bool, (m >>= fun y => (pure (some (.bool y)) : Told (Option Value))) ≠ .ok none := by
    intro m hm
    cases m <;> cases hm
  unfold operandValueX at h
  split at h
  · exact ⟨_, rfl⟩
  · rename_i v
    cases v <;> cases h
  · split at h
    · exact absurd h (h1 _)
    · exact absurd h (h2 _)

theorem told_comparison (env : Env) (d : Data) (op : CmpOp) (l r : Node) {bl br : Told Bool} (hl : HonestX bl) (hr : HonestX br) :
    HonestX (evalComparisonX op l r (operandValueX env d l bl) (operandValueX env d r br)) := by
  unfold evalComparisonX
  refine told_bind (told_operand env d l hl) fun lo hlo => told_bind (told_bare (foreign_isNullCheck _ _ _)) fun nc _ =>
    told_bind ?_ fun a _ => told_bind ?_ fun b _ => told_logicalCmp _ _ _ _ _
  · unfold leftX
    refine told_ite (told_pure _) ?_
    cases lo with
    | some v => exact told_pure _
    | none =>
      obtain ⟨f, rfl⟩ := operandX_none hlo
      exact told_tell (e := .dataNotFound) (by decide) _
  · unfold rightX
    refine told_ite (told_pure _) (told_bind (told_operand env d r hr) fun ro _ => ?_)
    cases ro
    · exact told_foreign (by decide)
    · exact told_pure _

theorem told_evalUnary (d : Data) (dt : DataType) (v : Value) : HonestX (evalUnaryX d dt v) := by
  unfold evalUnaryX
  refine told_ite ?_ (told_bind (told_bare (foreign_toText v)) fun _ _ => told_bind (told_requireField _ _) fun y _ => ?_)
  · cases v <;> first | exact told_ok _ | exact told_foreign (by decide)
  · cases y <;> first | exact told_ok _ | exact told_tell (by decide) _

mutual
theorem told_evalBool (env : Env) (d : Data) : (n : Node) → HonestX (evalBoolX env d n)
  | .cmp l r op t => by
    rw [evalBoolX]
    exact told_comparison env d op l r (told_evalBool env d l) (told_evalBool env d r)
  | .range .. => by
    rw [evalBoolX]
    exact told_bind (told_requireField _ _) fun _ _ => told_bind (told_logicalCmp _ _ _ _ _) fun _ _ =>
      told_bind (told_logicalCmp _ _ _ _ _) fun _ _ => told_pure _
  | .inn f items => by
    rw [evalBoolX]
    exact told_bind (told_requireField _ _) fun _ _ => told_bind (told_evalItems env d items) fun _ _ =>
      told_logicalIn _ _ _
  | .array f op items => by
    rw [evalBoolX]
    refine told_bind (told_requireField _ _) fun v _ => told_bind (told_evalItems env d items) fun vs _ => ?_
    split
    · exact told_tell (by decide) _
    · exact told_logicalArray _ _ _ _
  | .unary dt v => by rw [evalBoolX]; exact told_evalUnary _ _ _
  | .and_ l r => by
    rw [evalBoolX]
    exact told_bind (told_evalBool env d l) fun _ _ => told_ite (told_evalBool env d r) (told_pure _)
  | .or_ l r => by
    rw [evalBoolX]
    exact told_bind (told_evalBool env d l) fun _ _ => told_ite (told_pure _) (told_evalBool env d r)
  | .not_ l => by
    rw [evalBoolX]
    exact told_bind (told_evalBool env d l) fun _ _ => told_pure _
  | .field _ => by rw [evalBoolX]; exact told_ok _
  | .arith .. => by rw [evalBoolX]; exact told_ok _
  | .neg _ => by rw [evalBoolX]; exact told_ok _
  | .func .. => by rw [evalBoolX]; exact told_ok _
theorem told_evalItems (env : Env) (d : Data) : (ns : List Node) → HonestX (evalItemsX env d ns)
  | [] => by rw [evalItemsX]; exact told_ok _
  | n :: ns => by
    rw [evalItemsX]
    refine told_bind ?_ fun _ _ => told_bind (told_evalItems env d ns) fun _ _ => told_pure _
    unfold itemValueX
    exact told_ite (told_evalArith env d n) (told_bind (told_evalBool env d n) fun _ _ => told_pure _)
end

end BoolParser
