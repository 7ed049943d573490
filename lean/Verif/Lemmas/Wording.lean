import Verif.Spec.Wording
import Verif.Lemmas.Unfold
import Verif.Lemmas.Compare
import Verif.Lemmas.Functions
import Verif.Lemmas.Blame
import Verif.Lemmas.Scripts
import Verif.Props.Functions
/-!
# Messages of operators and functions (for C101)
-/

namespace BoolParser
open Spec

/-! ### Forgetting the messages -/

theorem untold_ok {α : Type} (a : α) : untold (.ok a : Told α) = .ok a := rfl
theorem untold_pure {α : Type} (a : α) : untold (pure a : Told α) = pure a := rfl
theorem untold_tell {α : Type} (e : Exn) (m : JStr) : untold (tell e m : Told α) = .error e := rfl

theorem untold_bare {α : Type} (r : Result α) : untold (bare r) = r := by cases r <;> rfl

theorem untold_bind {α β : Type} (m : Told α) (f : α → Told β) : untold (m >>= f) = untold m >>= fun a => untold (f a) := by
  cases m <;> rfl

theorem untold_ite {α : Type} (c : Prop) [Decidable c] (a b : Told α) :
    untold (if c then a else b) = if c then untold a else untold b := by split <;> rfl

theorem needX_same {α : Type} (t : DataType) (v : Value) (r : Result (Option α)) : untold (needX t v r) = need r := by
  match r with
  | .ok (some a) => rfl
  | .ok none => rfl
  | .error e => rfl

theorem bothX_same {α : Type} (t : DataType) (f : Value → Result (Option α)) (c : α → α → Ordering) (a b : Value) :
    untold (bothX t f c a b) = both f c a b := by
  unfold bothX both
  simp only [untold_bind, needX_same]
  rfl

theorem comparePrimX_same (t : DataType) (a b : Value) : untold (comparePrimX t a b) = comparePrim t a b := by
  cases t <;> exact bothX_same _ _ _ _ _

theorem evalEqX_same (op : CmpOp) (l : Value) (lt : DataType) (r : Value) (rt : DataType) :
    untold (evalEqX op l lt r rt) = evalEq op l lt r rt := by
  unfold evalEqX evalEq
  simp only [untold_bind, comparePrimX_same]
  rfl

theorem validateX_eq (l : Value) (lt : DataType) (r : Value) (rt : DataType) : validateX l lt r rt =
    match lt.numeric, rt.numeric with
    | false, true => bare (isValid rt l) >>= fun b => if !b then tell .invalidDataType (incompatibleText lt rt) else .ok ()
    | true, false => bare (isValid lt r) >>= fun b => if !b then tell .invalidDataType (incompatibleText lt rt) else .ok ()
    | _, _ => .ok () := by
  unfold validateX
  cases lt.numeric <;> cases rt.numeric <;> rfl

theorem validate_eq (l : Value) (lt : DataType) (r : Value) (rt : DataType) : validate l lt r rt =
    match lt.numeric, rt.numeric with
    | false, true => isValid rt l >>= fun b => if !b then .error .invalidDataType else .ok ()
    | true, false => isValid lt r >>= fun b => if !b then .error .invalidDataType else .ok ()
    | _, _ => .ok () := by
  unfold validate
  cases lt.numeric <;> cases rt.numeric <;> rfl

theorem validateX_same (l : Value) (lt : DataType) (r : Value) (rt : DataType) :
    untold (validateX l lt r rt) = validate l lt r rt := by
  rw [validateX_eq, validate_eq]
  cases lt.numeric <;> cases rt.numeric <;> simp only [untold_bind, untold_bare, untold_ite, untold_tell, untold_ok]

theorem evalOrdX_same (op : CmpOp) (l : Value) (lt : DataType) (r : Value) (rt : DataType) :
    untold (evalOrdX op l lt r rt) = evalOrd op l lt r rt := by
  unfold evalOrdX evalOrd
  simp only [untold_bind, comparePrimX_same, validateX_same]
  rfl

theorem evalCmpOpX_same (op : CmpOp) (l : Value) (lt : DataType) (r : Value) (rt : DataType) :
    untold (evalCmpOpX op l lt r rt) = evalCmpOp op l lt r rt := by
  cases op <;> first | exact evalEqX_same _ _ _ _ _ | exact evalOrdX_same _ _ _ _ _

theorem logicalCmpX_eq (op : CmpOp) (l : Value) (lt : DataType) (r : Value) (rt : DataType) :
    logicalCmpX op l lt r rt =
    if !op.allows lt then tell .invalidDataType (leftTypeText lt op.name)
    else bare (isValid lt l) >>= fun b =>
      if !b then tell .invalidDataType (operandText op.name l.text)
      else if !op.allows rt then tell .invalidDataType (rightTypeText rt op.name)
      else evalCmpOpX op l lt r rt := rfl

theorem logicalCmpX_same (op : CmpOp) (l : Value) (lt : DataType) (r : Value) (rt : DataType) :
    untold (logicalCmpX op l lt r rt) = logicalCmp op l lt r rt := by
  rw [logicalCmpX_eq, logicalCmp_eq]
  simp only [untold_ite, untold_bind, untold_bare, untold_tell, evalCmpOpX_same]

theorem allMX_same {α : Type} {f : α → Told Bool} {g : α → Result Bool} (h : ∀ x, untold (f x) = g x) :
    (xs : List α) → untold (allMX f xs) = allM' g xs
  | [] => rfl
  | x :: xs => by
    rw [allMX, allM', untold_bind, h]
    simp only [untold_ite, allMX_same h xs, untold_pure]

theorem anyMX_same {α : Type} {f : α → Told Bool} {g : α → Result Bool} (h : ∀ x, untold (f x) = g x) :
    (xs : List α) → untold (anyMX f xs) = anyM' g xs
  | [] => rfl
  | x :: xs => by
    rw [anyMX, anyM', untold_bind, h]
    simp only [untold_ite, anyMX_same h xs, untold_pure]

theorem evalInX_same (l : Value) (lt : DataType) (rs : List Typed) : untold (evalInX l lt rs) = evalIn l lt rs :=
  anyMX_same (fun _ => evalEqX_same _ _ _ _ _) rs

theorem logicalInX_eq (l : Value) (lt : DataType) (rs : List Typed) : logicalInX l lt rs =
    bare (isValid lt l) >>= fun b => if !b then tell .invalidDataType (operandText j!"IN" l.text) else evalInX l lt rs := rfl

theorem logicalInX_same (l : Value) (lt : DataType) (rs : List Typed) : untold (logicalInX l lt rs) = logicalIn l lt rs := by
  rw [logicalInX_eq, logicalIn_eq]
  simp only [untold_bind, untold_bare, untold_ite, untold_tell, evalInX_same]

theorem evalArrayX_same (op : ArrOp) (l : Value) (lt : DataType) (rs : List Typed) :
    untold (evalArrayX op l lt rs) = evalArray op l lt rs := by
  unfold evalArrayX evalArray
  rw [untold_bind, untold_bare]
  congr 1
  funext b
  rw [untold_ite]
  congr 1
  cases l <;> first | rfl | skip
  cases op
  · exact allMX_same (fun _ => evalInX_same _ _ _) rs
  · exact anyMX_same (fun _ => evalInX_same _ _ _) rs

theorem logicalArrayX_eq (op : ArrOp) (l : Value) (lt : DataType) (rs : List Typed) : logicalArrayX op l lt rs =
    bare (isValidList lt l) >>= fun b =>
      if !b then tell .invalidDataType (operandText op.name l.text) else evalArrayX op l lt rs := rfl

theorem logicalArrayX_same (op : ArrOp) (l : Value) (lt : DataType) (rs : List Typed) :
    untold (logicalArrayX op l lt rs) = logicalArray op l lt rs := by
  rw [logicalArrayX_eq, logicalArray_eq]
  simp only [untold_bind, untold_bare, untold_ite, untold_tell, evalArrayX_same]

theorem arithBinaryX_eq (env : Env) (op : ArithOp) (l : Value) (lt : DataType) (r : Value) (rt : DataType) :
    arithBinaryX env op l lt r rt =
    if !op.allows lt then tell .invalidDataType (leftTypeText lt op.name)
    else bare (isValid lt l) >>= fun b =>
      if !b then tell .invalidDataType (operandText op.name l.text)
      else if !op.allows rt then tell .invalidDataType (leftTypeText rt op.name)
      else bare (rightValid rt r) >>= fun b =>
        if !b then tell .invalidDataType (operandText op.name rt.name) else bare (evalArithOp env op l lt r rt) := rfl

theorem arithBinaryX_same (env : Env) (op : ArithOp) (l : Value) (lt : DataType) (r : Value) (rt : DataType) :
    untold (arithBinaryX env op l lt r rt) = arithBinary env op l lt r rt := by
  rw [arithBinaryX_eq, arithBinary_eq]
  simp only [untold_ite, untold_bind, untold_bare, untold_tell]

theorem arithNegateX_eq (v : Value) (t : DataType) : arithNegateX v t =
    if !(t == .integer || t == .long || t == .decimal) then tell .invalidDataType (leftTypeText t j!"UNARY")
    else bare (isValid t v) >>= fun b =>
      if !b then tell .invalidDataType (operandText j!"UNARY" v.text) else bare (evalNeg v t) := rfl

theorem arithNegateX_same (v : Value) (t : DataType) : untold (arithNegateX v t) = arithNegate v t := by
  rw [arithNegateX_eq, arithNegate_eq]
  simp only [untold_ite, untold_bind, untold_bare, untold_tell]

theorem validateItemsX_cons (f : FuncType) (x : Typed) (xs : List Typed) : validateItemsX f (x :: xs) =
    bare (isValid x.2 x.1) >>= fun b =>
      if !b then tell .invalidDataType (j!"Validation failed for the function " ++ f.name ++ j!" for the operand " ++ x.1.text)
      else validateItemsX f xs := rfl

theorem validateItemsX_same (f : FuncType) : (xs : List Typed) → untold (validateItemsX f xs) = validateItems xs
  | [] => rfl
  | x :: xs => by
    rw [validateItemsX_cons, validateItems_cons]
    simp only [untold_ite, untold_bind, untold_bare, untold_tell, validateItemsX_same f xs]

theorem daysFnX_same (env : Env) (items : List Typed) : untold (daysFnX env items) = daysFn env items := by
  match items with
  | [] => rfl
  | [(v, t)] =>
    cases v <;> try rfl
    rename_i s
    simp only [daysFnX, daysFn]
    cases parseIsoDate s <;> rfl
  | x :: y :: zs =>
    obtain ⟨v, t⟩ := x
    cases v <;> rfl

theorem evalFnX_same (env : Env) (f : FuncType) (items : List Typed) : untold (evalFnX env f items) = evalFn env f items := by
  cases f <;> first | exact untold_bare _ | exact daysFnX_same env items

theorem callFnX_eq (env : Env) (f : FuncType) (items : List Typed) : callFnX env f items =
    if items.isEmpty then tell .invalidExpression j!"Empty items not allowed"
    else if !(if 1 < items.length then f.allowsMany else f.allowsOne) then
      tell .invalidContainerType (j!"Invalid container type " ++ (if 1 < items.length then j!"LIST" else j!"PRIMITIVE") ++
        j!" for function " ++ f.name)
    else if !(items.all (fun x => f.allows x.2)) then tell .invalidDataType (j!"Invalid data type for function " ++ f.name)
    else validateItemsX f items >>= fun _ => evalFnX env f items := rfl

theorem callFnX_same (env : Env) (f : FuncType) (items : List Typed) : untold (callFnX env f items) = callFn env f items := by
  rw [callFnX_eq, callFn_eq]
  simp only [untold_ite, untold_bind, untold_tell, validateItemsX_same, evalFnX_same]

/-! ### Which computations end with a message -/

/-- The computation ends with this message. -/
abbrev SaysX {α : Type} (m : Told α) (x : Exn) (t : JStr) : Prop := m = .error ⟨x, some t⟩

variable {α β : Type} {x : Exn} {t : JStr}

theorem says_tell {e : Exn} {m : JStr} : SaysX (tell e m : Told α) x t ↔ x = e ∧ t = m := by
  constructor
  · intro h; cases h; exact ⟨rfl, rfl⟩
  · rintro ⟨rfl, rfl⟩; rfl

theorem says_ok {a : α} : SaysX (.ok a : Told α) x t ↔ False := ⟨fun h => (by cases h), False.elim⟩
theorem says_pure {a : α} : SaysX (pure a : Told α) x t ↔ False := ⟨fun h => (by cases h), False.elim⟩
theorem says_bare {r : Result α} : SaysX (bare r) x t ↔ False := ⟨fun h => (by cases r <;> cases h), False.elim⟩

theorem says_bind {m : Told α} {f : α → Told β} :
    SaysX (m >>= f) x t ↔ SaysX m x t ∨ ∃ a, untold m = .ok a ∧ SaysX (f a) x t := by
  cases m with
  | ok a =>
    constructor
    · intro h; exact .inr ⟨a, rfl, h⟩
    · rintro (h | ⟨b, h, h'⟩)
      · cases h
      · cases h; exact h'
  | error e =>
    constructor
    · intro h; cases h; exact .inl rfl
    · rintro (h | ⟨b, h, h'⟩)
      · cases h; rfl
      · cases h

theorem says_bare_bind {r : Result α} {f : α → Told β} : SaysX (bare r >>= f) x t ↔ ∃ a, r = .ok a ∧ SaysX (f a) x t := by
  rw [says_bind, says_bare, untold_bare, false_or]

theorem says_ite {c : Prop} [Decidable c] {a b : Told α} :
    SaysX (if c then a else b) x t ↔ (c ∧ SaysX a x t) ∨ (¬ c ∧ SaysX b x t) := by
  by_cases h : c <;> simp [h]

/-! ### Names -/

theorem name_type (t : DataType) : t.name = typeText t := by cases t <;> rfl
theorem name_op (o : ArithOp) : o.name = opText o := by cases o <;> rfl
theorem name_test (o : CmpOp) : o.name = testText o := by cases o <;> rfl
theorem name_arr (o : ArrOp) : o.name = arrText o := by cases o <;> rfl
theorem name_fn (f : FuncType) : f.name = fnText f := by cases f <;> rfl

/-! ### Values and their own types -/

theorem nan_parse {s : JStr} : (¬ ∃ x, Numeral s x) ↔ Dec.parse s = none := by
  constructor
  · intro h; exact not_numeral fun x hx => h ⟨x, hx⟩
  · rintro h ⟨x, hx⟩
    obtain ⟨d, hd, _⟩ := numeral_iff.1 hx
    rw [h] at hd; cases hd

theorem own_says (v : Value) : (NotANumber v ∧ isValid (getDataType v) v = .ok false ∧ getDataType v = .decimal) ∨
    (¬ NotANumber v ∧ isValid (getDataType v) v = .ok true) := by
  cases v with
  | null => exact .inr ⟨id, rfl⟩
  | dbl s =>
    show ((¬ ∃ x, Numeral s x) ∧ isValid .decimal (.dbl s) = _ ∧ _) ∨ (¬ (¬ ∃ x, Numeral s x) ∧ isValid .decimal (.dbl s) = _)
    rw [nan_parse]
    cases h : Dec.parse s with
    | none => exact .inl ⟨rfl, by simp only [isValid, asDec, Value.text, h]; rfl, rfl⟩
    | some d => exact .inr ⟨by simp, by simp only [isValid, asDec, Value.text, h]; rfl⟩
  | flt s =>
    show ((¬ ∃ x, Numeral s x) ∧ isValid .decimal (.flt s) = _ ∧ _) ∨ (¬ (¬ ∃ x, Numeral s x) ∧ isValid .decimal (.flt s) = _)
    rw [nan_parse]
    cases h : Dec.parse s with
    | none => exact .inl ⟨rfl, by simp only [isValid, asDec, Value.text, h]; rfl, rfl⟩
    | some d => exact .inr ⟨by simp, by simp only [isValid, asDec, Value.text, h]; rfl⟩
  | str s =>
    rcases own_type (v := .str s) (by intro h; cases h) with h | ⟨h, _, _⟩
    · exact .inr ⟨id, h⟩
    · simp only [getDataType] at h
      split at h
      · cases h
      · split at h <;> cases h
  | _ =>
    exact .inr ⟨id, rfl⟩

theorem rightValid_own (v : Value) : rightValid (getDataType v) v = isValid (getDataType v) v := by cases v <;> rfl

theorem number_type (v : Value) : IsNumber v = true ↔ getDataType v = .integer ∨ getDataType v = .long ∨ getDataType v = .decimal := by
  refine ⟨fun h => ?_, numeric_isNumber⟩
  cases v <;> first | (cases h; done) | simp [getDataType]

theorem wholeNumber_type (v : Value) : (IsNumber v = true ∧ IsDecimal v = false) ↔ getDataType v = .integer ∨ getDataType v = .long := by
  constructor
  · rintro ⟨h, h'⟩
    cases v <;> first | (cases h; done) | (cases h'; done) | simp [getDataType]
  · intro h
    refine ⟨numeric_isNumber (by tauto), ?_⟩
    cases v <;> first | rfl | (simp [getDataType] at h; done)

theorem allows_takes (o : ArithOp) (v : Value) : o.allows (getDataType v) = true ↔ TakesOperand o v := by
  cases o with
  | add =>
    show _ ↔ (_ ∧ _)
    cases getDataType v <;> simp [ArithOp.allows, isStringType]
  | mod =>
    show _ ↔ (_ ∧ _)
    rw [wholeNumber_type]
    cases getDataType v <;> simp [ArithOp.allows]
  | _ =>
    show _ ↔ IsNumber v = true
    rw [number_type]
    cases getDataType v <;> simp [ArithOp.allows]

/-! ### Calculations -/

theorem arithBinaryX_says (env : Env) (o : ArithOp) (a b : Value) :
    SaysX (arithBinaryX env o a (getDataType a) b (getDataType b)) x t ↔ x = .invalidDataType ∧ OperatorSays o a b t := by
  rw [arithBinaryX_eq, rightValid_own]
  simp only [leftTypeText, operandText, name_op, name_type]
  by_cases ha : TakesOperand o a
  · rw [if_neg (by simp [(allows_takes o a).2 ha])]
    rcases own_says a with ⟨na, va, _⟩ | ⟨na, va⟩
    · rw [va]
      refine Iff.trans says_tell ⟨?_, ?_⟩
      · rintro ⟨rfl, rfl⟩; exact ⟨rfl, .leftValue ha na⟩
      · rintro ⟨rfl, h⟩
        cases h with
        | left h => exact absurd ha h
        | leftValue => exact ⟨rfl, rfl⟩
        | right _ h => exact absurd na h
        | rightValue _ h => exact absurd na h
    · rw [va, says_bare_bind]
      have : (∃ c, (.ok true : Result Bool) = .ok c ∧ SaysX (if (!c) = true then
            tell .invalidDataType (j!"Validation failed for the operator " ++ opText o ++ j!" for the operand " ++ a.text)
          else if (!o.allows (getDataType b)) = true then
            tell .invalidDataType (j!"Invalid left operand data type " ++ typeText (getDataType b) ++ j!" for operator " ++ opText o)
          else bare (isValid (getDataType b) b) >>= fun c =>
            if (!c) = true then
              tell .invalidDataType (j!"Validation failed for the operator " ++ opText o ++ j!" for the operand " ++
                typeText (getDataType b))
            else bare (evalArithOp env o a (getDataType a) b (getDataType b))) x t) ↔
          SaysX (if (!o.allows (getDataType b)) = true then
            tell .invalidDataType (j!"Invalid left operand data type " ++ typeText (getDataType b) ++ j!" for operator " ++ opText o)
          else bare (isValid (getDataType b) b) >>= fun c =>
            if (!c) = true then
              tell .invalidDataType (j!"Validation failed for the operator " ++ opText o ++ j!" for the operand " ++
                typeText (getDataType b))
            else bare (evalArithOp env o a (getDataType a) b (getDataType b))) x t := by
        constructor
        · rintro ⟨c, h, h'⟩; cases h; exact h'
        · intro h; exact ⟨true, rfl, h⟩
      rw [this]
      by_cases hb : TakesOperand o b
      · rw [if_neg (by simp [(allows_takes o b).2 hb])]
        rcases own_says b with ⟨nb, vb, db⟩ | ⟨nb, vb⟩
        · rw [vb, db]
          refine Iff.trans says_tell ⟨?_, ?_⟩
          · rintro ⟨rfl, rfl⟩; exact ⟨rfl, .rightValue ha na hb nb⟩
          · rintro ⟨rfl, h⟩
            cases h with
            | left h => exact absurd ha h
            | leftValue _ h => exact absurd h na
            | right _ _ h => exact absurd hb h
            | rightValue => exact ⟨rfl, rfl⟩
        · rw [vb]
          refine Iff.trans says_bare ⟨False.elim, ?_⟩
          rintro ⟨rfl, h⟩
          cases h with
          | left h => exact absurd ha h
          | leftValue _ h => exact absurd h na
          | right _ _ h => exact absurd hb h
          | rightValue _ _ _ h => exact absurd h nb
      · rw [if_pos (by simpa using fun h => hb ((allows_takes o b).1 h))]
        refine Iff.trans says_tell ⟨?_, ?_⟩
        · rintro ⟨rfl, rfl⟩; exact ⟨rfl, .right ha na hb⟩
        · rintro ⟨rfl, h⟩
          cases h with
          | left h => exact absurd ha h
          | leftValue _ h => exact absurd h na
          | right => exact ⟨rfl, rfl⟩
          | rightValue _ _ h => exact absurd h hb
  · rw [if_pos (by simpa using fun h => ha ((allows_takes o a).1 h))]
    refine Iff.trans says_tell ⟨?_, ?_⟩
    · rintro ⟨rfl, rfl⟩; exact ⟨rfl, .left ha⟩
    · rintro ⟨rfl, h⟩
      cases h with
      | left => exact ⟨rfl, rfl⟩
      | leftValue h => exact absurd h ha
      | right h => exact absurd h ha
      | rightValue h => exact absurd h ha

theorem arithNegateX_says (a : Value) :
    SaysX (arithNegateX a (getDataType a)) x t ↔ x = .invalidDataType ∧ NegationSays a t := by
  rw [arithNegateX_eq]
  simp only [leftTypeText, operandText, name_type]
  have hn : (!(getDataType a == .integer || getDataType a == .long || getDataType a == .decimal)) = true ↔ IsNumber a = false := by
    rw [← Bool.not_eq_true (IsNumber a), number_type]
    cases getDataType a <;> simp
  have app : j!"Invalid left operand data type " ++ typeText (getDataType a) ++ j!" for operator " ++ j!"UNARY" =
      j!"Invalid left operand data type " ++ typeOf a ++ j!" for operator UNARY" := by
    rw [List.append_assoc]; rfl
  have app2 : j!"Validation failed for the operator " ++ j!"UNARY" ++ j!" for the operand " ++ a.text =
      j!"Validation failed for the operator UNARY for the operand " ++ a.text := rfl
  rw [app, app2]
  by_cases ha : IsNumber a = false
  · rw [if_pos (hn.2 ha)]
    refine Iff.trans says_tell ⟨?_, ?_⟩
    · rintro ⟨rfl, rfl⟩; exact ⟨rfl, .type ha⟩
    · rintro ⟨rfl, h⟩
      cases h with
      | type => exact ⟨rfl, rfl⟩
      | value h => cases a <;> first | cases h; done | cases ha
  · rw [if_neg (fun h => ha (hn.1 h))]
    rcases own_says a with ⟨na, va, _⟩ | ⟨na, va⟩
    · rw [va]
      refine Iff.trans says_tell ⟨?_, ?_⟩
      · rintro ⟨rfl, rfl⟩; exact ⟨rfl, .value na⟩
      · rintro ⟨rfl, h⟩
        cases h with
        | type h => exact absurd h ha
        | value => exact ⟨rfl, rfl⟩
    · rw [va]
      refine Iff.trans says_bare ⟨False.elim, ?_⟩
      rintro ⟨rfl, h⟩
      cases h with
      | type h => exact absurd h ha
      | value h => exact absurd h na

/-! ### Functions -/

theorem count_takes (f : FuncType) {n : ℕ} (h : 1 ≤ n) :
    (if 1 < n then f.allowsMany else f.allowsOne) = true ↔ TakesCount f n := by
  by_cases h1 : 1 < n
  · rw [if_pos h1]
    cases f <;> simp [FuncType.allowsMany, TakesCount] <;> omega
  · rw [if_neg h1]
    cases f <;> simp [FuncType.allowsOne, TakesCount] <;> omega

theorem item_takes (f : FuncType) (v : Value) : f.allows (getDataType v) = true ↔ TakesItem f v := by
  cases f with
  | len => exact ⟨fun _ => trivial, fun _ => rfl⟩
  | daysElapsed =>
    show _ ↔ getDataType v = .date
    cases getDataType v <;> simp [FuncType.allows]
  | _ =>
    show _ ↔ IsNumber v = true
    rw [number_type]
    cases getDataType v <;> simp [FuncType.allows]

theorem all_takes (f : FuncType) (ws : List Value) :
    (typed ws).all (fun x => f.allows x.2) = true ↔ ∀ w ∈ ws, TakesItem f w := by
  simp only [typed, List.all_map, List.all_eq_true, Function.comp_apply, item_takes]

theorem typed_cons (w : Value) (ws : List Value) : typed (w :: ws) = (w, getDataType w) :: typed ws := rfl

theorem validateItemsX_says (f : FuncType) : (ws : List Value) →
    (SaysX (validateItemsX f (typed ws)) x t ↔ x = .invalidDataType ∧ ∃ before w after, ws = before ++ w :: after ∧
      (∀ v ∈ before, ¬ NotANumber v) ∧ NotANumber w ∧
      t = j!"Validation failed for the function " ++ fnText f ++ j!" for the operand " ++ w.text)
  | [] => by
    refine ⟨fun h => (by cases h), ?_⟩
    rintro ⟨_, before, w, after, h, _⟩
    cases before <;> cases h
  | v :: ws => by
    rw [typed_cons, validateItemsX_cons, name_fn]
    rcases own_says v with ⟨nv, vv, _⟩ | ⟨nv, vv⟩
    · simp only [vv]
      refine Iff.trans says_tell ⟨?_, ?_⟩
      · rintro ⟨rfl, rfl⟩; exact ⟨rfl, [], v, ws, rfl, by simp, nv, rfl⟩
      · rintro ⟨rfl, before, w, after, h, hb, hw, rfl⟩
        cases before with
        | nil => cases h; exact ⟨rfl, rfl⟩
        | cons u us => cases h; exact absurd nv (hb v (by simp))
    · simp only [vv]
      refine Iff.trans (validateItemsX_says f ws) ⟨?_, ?_⟩
      · rintro ⟨rfl, before, w, after, rfl, hb, hw, rfl⟩
        refine ⟨rfl, v :: before, w, after, rfl, ?_, hw, rfl⟩
        intro u hu
        rcases List.mem_cons.1 hu with rfl | hu
        · exact nv
        · exact hb u hu
      · rintro ⟨rfl, before, w, after, h, hb, hw, rfl⟩
        cases before with
        | nil => cases h; exact absurd hw nv
        | cons u us => cases h; exact ⟨rfl, us, w, after, rfl, fun z hz => hb z (by simp [hz]), hw, rfl⟩

theorem validateItems_nan : (ws : List Value) → (validateItems (typed ws) = .ok () ↔ ∀ w ∈ ws, ¬ NotANumber w)
  | [] => ⟨fun _ => by simp, fun _ => rfl⟩
  | v :: ws => by
    rw [typed_cons, validateItems_cons]
    rcases own_says v with ⟨nv, vv, _⟩ | ⟨nv, vv⟩
    · simp only [vv]
      exact ⟨fun h => (by cases h), fun h => absurd nv (h v (by simp))⟩
    · simp only [vv]
      refine Iff.trans (validateItems_nan ws) ?_
      simp [nv]

theorem evalFnX_says (env : Env) (f : FuncType) {ws : List Value} (hc : TakesCount f ws.length) (ht : ∀ w ∈ ws, TakesItem f w) :
    SaysX (evalFnX env f (typed ws)) x t ↔ ∃ s, f = .daysElapsed ∧ ws = [.str s] ∧ parseIsoDate s = none ∧
      x = .invalidFunctionArgument ∧ t = j!"DAYS_ELAPSED function requires a valid date argument, got: " ++ s := by
  by_cases hf : f = .daysElapsed
  · subst hf
    match ws, hc with
    | [w], _ =>
      have hw : getDataType w = .date := ht w (by simp)
      cases w with
      | date y => exact ⟨fun h => (by cases h), by rintro ⟨s, _, h, _⟩; cases h⟩
      | str s =>
        show SaysX (match parseIsoDate s with
          | some d => .ok (Value.long (epochDay env.today - epochDay d))
          | none => tell .invalidFunctionArgument (j!"DAYS_ELAPSED function requires a valid date argument, got: " ++ s)) x t ↔ _
        cases e : parseIsoDate s with
        | some y =>
          refine ⟨fun h => (by cases h), ?_⟩
          rintro ⟨s', _, h, h', _⟩
          cases h; rw [e] at h'; cases h'
        | none =>
          refine Iff.trans says_tell ⟨?_, ?_⟩
          · rintro ⟨rfl, rfl⟩; exact ⟨s, rfl, rfl, e, rfl, rfl⟩
          · rintro ⟨s', _, h, _, rfl, rfl⟩; cases h; exact ⟨rfl, rfl⟩
      | _ => cases hw
  · have : evalFnX env f (typed ws) = bare (evalFn env f (typed ws)) := by
      cases f <;> first | rfl | exact absurd rfl hf
    rw [this]
    refine Iff.trans says_bare ⟨False.elim, ?_⟩
    rintro ⟨s, h, _⟩; exact hf h

theorem callFnX_says (env : Env) (f : FuncType) (ws : List Value) :
    SaysX (callFnX env f (typed ws)) x t ↔ FunctionSays f ws x t := by
  rw [callFnX_eq]
  have hlen : (typed ws).length = ws.length := by simp [typed]
  simp only [hlen, name_fn]
  by_cases h0 : ws = []
  · subst h0
    refine Iff.trans says_tell ⟨?_, ?_⟩
    · rintro ⟨rfl, rfl⟩; exact .empty rfl
    · intro h
      cases h with
      | empty => exact ⟨rfl, rfl⟩
      | one h => cases h
      | many h => cases h
      | type _ h => cases h
      | value _ _ h => exact absurd h (by simp)
      | day _ h => cases h
  have hpos : 1 ≤ ws.length := List.length_pos_of_ne_nil h0
  rw [if_neg (by cases ws <;> simp_all [typed])]
  by_cases hc : TakesCount f ws.length
  · rw [if_neg (by rw [(count_takes f hpos).2 hc]; decide)]
    by_cases ht : ∀ w ∈ ws, TakesItem f w
    · rw [if_neg (by rw [(all_takes f ws).2 ht]; decide), says_bind, validateItemsX_says, evalFnX_says env f hc ht,
        validateItemsX_same]
      constructor
      · rintro (⟨rfl, before, w, after, h1, h2, h3, rfl⟩ | ⟨_, hv, s, rfl, rfl, hs, rfl, rfl⟩)
        · exact .value hc ht h1 h2 h3
        · exact .day rfl rfl (ht _ (by simp)) hs
      · intro h
        cases h with
        | empty h => exact absurd h h0
        | one h h' => rw [h] at hc; exact absurd hc h'
        | many _ h => exact absurd hc h
        | type _ h h' => exact absurd (ht _ h) h'
        | value _ _ h1 h2 h3 => exact .inl ⟨rfl, _, _, _, h1, h2, h3, rfl⟩
        | day h1 h2 _ h4 =>
          refine .inr ⟨(), (validateItems_nan ws).2 ?_, _, h1, h2, h4, rfl, rfl⟩
          rw [h2]; intro w hw
          rw [List.mem_singleton.1 hw]; exact id
    · rw [if_pos (by simpa using fun h => ht ((all_takes f ws).1 h))]
      have ht' : ∃ w ∈ ws, ¬ TakesItem f w := by simpa using ht
      obtain ⟨w, hw, hn⟩ := ht'
      refine Iff.trans says_tell ⟨?_, ?_⟩
      · rintro ⟨rfl, rfl⟩; exact .type hc hw hn
      · intro h
        cases h with
        | empty h => exact absurd h h0
        | one h h' => rw [h] at hc; exact absurd hc h'
        | many _ h => exact absurd hc h
        | type => exact ⟨rfl, rfl⟩
        | value _ h => exact absurd h ht
        | day h1 h2 h3 =>
          exfalso; apply ht
          subst h1; rw [h2]; intro z hz
          rw [List.mem_singleton.1 hz]; exact h3
  · rw [if_pos (by simpa using fun h => hc ((count_takes f hpos).1 h))]
    refine Iff.trans says_tell ⟨?_, ?_⟩
    · rintro ⟨rfl, rfl⟩
      by_cases h1 : 1 < ws.length
      · rw [if_pos h1]; exact .many h1 hc
      · rw [if_neg h1]
        have : ws.length = 1 := by omega
        exact .one this (this ▸ hc)
    · intro h
      cases h with
      | empty h => exact absurd h h0
      | one h => rw [h]; exact ⟨rfl, rfl⟩
      | many h => rw [if_pos (show 1 < ws.length from h)]; exact ⟨rfl, rfl⟩
      | type h => exact absurd h hc
      | value h => exact absurd h hc
      | day h1 h2 => subst h1; rw [h2] at hc; exact absurd rfl hc

end BoolParser
