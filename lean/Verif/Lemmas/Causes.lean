import Verif.Lemmas.Made
import Verif.Lemmas.Blame
import Verif.Lemmas.NonNull
import Verif.Lemmas.Functions2
import Verif.Lemmas.Kinds
/-!
# What can make an evaluation fail

Every exception of the evaluators is traced to an operator, a function, a name or a literal of the node, or to a value
of the data.
-/

namespace BoolParser
open Spec

/-- A failure satisfies `P`. -/
def FailsBy {α : Type} (P : Exn → Prop) (r : Result α) : Prop := ∀ e, r = .error e → P e

variable {P : Exn → Prop} {α β : Type}

theorem fails_ok (a : α) : FailsBy P (.ok a : Result α) := by intro e h; cases h
theorem fails_err {e : Exn} (h : P e) : FailsBy P (.error e : Result α) := by intro e' h'; cases h'; exact h
theorem fails_bind {r : Result α} {f : α → Result β} (hr : FailsBy P r) (h : ∀ a, r = .ok a → FailsBy P (f a)) :
    FailsBy P (r >>= f) := by
  cases r with
  | ok a => exact h a rfl
  | error e => exact fails_err (hr e rfl)
theorem fails_bind' {r : Result α} {f : α → Result β} (hr : FailsBy P r) (h : ∀ a, FailsBy P (f a)) :
    FailsBy P (r >>= f) := fails_bind hr fun a _ => h a
theorem fails_ite {c : Prop} [Decidable c] {a b : Result α} (ha : c → FailsBy P a) (hb : ¬ c → FailsBy P b) :
    FailsBy P (if c then a else b) := by
  split
  · rename_i h; exact ha h
  · rename_i h; exact hb h
theorem fails_some {r : Result (Option α)} {a : α} (h : r = .ok (some a)) : FailsBy P (getOpt r) := by
  rw [h]; exact fails_ok _

/-! ### Where values come from -/

/-- What may be met among the values: nulls, doubles and floats, empty lists, other collections than lists, numbers
that do not fit their type. -/
structure Givens where
  null : Prop
  flt : Prop
  empty : Prop
  coll : Prop
  big : Prop

def Plain (W : Givens) : Value → Prop
  | .null => W.null
  | .flt _ => W.flt
  | .dbl _ => W.flt
  | .list xs => xs = [] → W.empty
  | .coll xs => W.coll ∧ (xs = [] → W.empty)
  | .arr _ _ => W.coll
  | .int n => InInt32 n ∨ W.big
  | .long n => InInt64 n ∨ W.big
  | _ => True

/-- A value is another one, or an element of it, an element of an element, and so on. -/
inductive Under : Value → Value → Prop
  | self (v : Value) : Under v v
  | item {v x w : Value} {xs : List Value} : listElems? w = some xs → x ∈ xs → Under v x → Under v w

def Val (W : Givens) (v : Value) : Prop := ∀ x, Under x v → Plain W x

variable {W : Givens}

theorem val_self {v : Value} (h : Val W v) : Plain W v := h v (.self v)
theorem val_item {v x : Value} {xs : List Value} (h : Val W v) (hv : listElems? v = some xs) (hx : x ∈ xs) : Val W x :=
  fun y hy => h y (.item hv hx hy)
theorem val_of {v : Value} (h : Plain W v) (hv : listElems? v = none) : Val W v := by
  intro x hx
  cases hx with
  | self => exact h
  | item hw _ _ => rw [hv] at hw; cases hw

theorem val_str (s : JStr) : Val W (.str s) := val_of trivial rfl
theorem val_bool (b : Bool) : Val W (.bool b) := val_of trivial rfl
theorem val_dec (d : Dec) : Val W (.dec d) := val_of trivial rfl
theorem val_int {n : Int} (h : InInt32 n ∨ W.big) : Val W (.int n) := val_of h rfl
theorem val_long {n : Int} (h : InInt64 n ∨ W.big) : Val W (.long n) := val_of h rfl

theorem val_castLong {n : Int} (h : InInt64 n) : Val W (castLong n) := by
  unfold castLong
  split
  · rename_i h; exact val_int (.inl h)
  · exact val_long (.inl h)

theorem val_castWhole (n : Int) : Val W (castWhole n) := by
  unfold castWhole
  split
  · rename_i h; exact val_int (.inl h)
  · exact val_dec _

theorem val_castDecimal (d : Dec) : Yields (Val W) (castDecimal d) := by
  unfold castDecimal
  exact yields_ite (yields_bind (intValueExact_in d) fun n hn => yields_ok (val_int (.inl hn))) (yields_ok (val_dec _))

theorem val_castDouble (d : Dbl) : Yields (Val W) (castDouble d) := by
  unfold castDouble
  split
  · exact yields_err _
  · exact yields_err _
  · apply yields_ok
    split
    · rename_i h; exact val_int (.inl h.2)
    · exact val_dec _

theorem null_world {v : Value} (h : Val W v) (hv : v = .null) : W.null := by subst hv; exact val_self h

/-! ### Coercions and comparisons -/

theorem fails_toText {v : Value} (h : v = .null → P .nullPointer) : FailsBy P (toText v) := by
  cases v <;> first | exact fails_ok _ | exact fails_err (h rfl)

theorem fails_asString {v : Value} (h : v = .null → P .nullPointer) : FailsBy P (asString v) :=
  fails_bind' (fails_toText h) fun _ => fails_ok _
theorem fails_asBool {v : Value} (h : v = .null → P .nullPointer) : FailsBy P (asBool v) := by
  unfold asBool
  split
  · exact fails_ok _
  · exact fails_bind' (fails_toText h) fun _ => fails_ok _
theorem fails_asDate {v : Value} (h : v = .null → P .nullPointer) : FailsBy P (asDate v) := by
  unfold asDate
  split
  · exact fails_ok _
  · exact fails_bind' (fails_toText h) fun _ => fails_ok _
theorem fails_asDateTime {v : Value} (h : v = .null → P .nullPointer) : FailsBy P (asDateTime v) := by
  unfold asDateTime
  split
  · exact fails_ok _
  · exact fails_bind' (fails_toText h) fun _ => fails_ok _
theorem fails_asInt (v : Value) : FailsBy P (asInt v) := by unfold asInt; split <;> exact fails_ok _
theorem fails_asLong (v : Value) : FailsBy P (asLong v) := by unfold asLong; split <;> exact fails_ok _
theorem fails_asDec (v : Value) : FailsBy P (asDec v) := by unfold asDec; split <;> exact fails_ok _
theorem fails_asVer (v : Value) : FailsBy P (asVer v) := by unfold asVer; split <;> exact fails_ok _

theorem fails_isValid {t : DataType} {v : Value} (h : v = .null → P .nullPointer) : FailsBy P (isValid t v) := by
  cases t
  · exact fails_ok _
  · exact fails_bind' (fails_asInt v) fun _ => fails_ok _
  · exact fails_bind' (fails_asLong v) fun _ => fails_ok _
  · exact fails_bind' (fails_asDec v) fun _ => fails_ok _
  · exact fails_bind' (fails_asVer v) fun _ => fails_ok _
  · exact fails_bind' (fails_asBool h) fun _ => fails_ok _
  · exact fails_bind' (fails_asDate h) fun _ => fails_ok _
  · exact fails_bind' (fails_asDateTime h) fun _ => fails_ok _

theorem fails_need {r : Result (Option α)} (hi : P .invalidDataType) (h : FailsBy P r) : FailsBy P (need r) := by
  match r, h with
  | .ok (some a), _ => exact fails_ok _
  | .ok none, _ => exact fails_err hi
  | .error e, h => exact fails_err (h e rfl)

theorem fails_both {f : Value → Result (Option α)} (hi : P .invalidDataType) {a b : Value} (ha : FailsBy P (f a)) (hb : FailsBy P (f b))
    (c : α → α → Ordering) : FailsBy P (both f c a b) :=
  fails_bind' (fails_need hi ha) fun _ => fails_bind' (fails_need hi hb) fun _ => fails_ok _

theorem fails_comparePrim (hi : P .invalidDataType) (t : DataType) {a b : Value} (ha : a = .null → P .nullPointer)
    (hb : b = .null → P .nullPointer) : FailsBy P (comparePrim t a b) := by
  cases t
  · exact fails_both hi (fails_asString ha) (fails_asString hb) _
  · exact fails_both hi (fails_asInt a) (fails_asInt b) _
  · exact fails_both hi (fails_asLong a) (fails_asLong b) _
  · exact fails_both hi (fails_asDec a) (fails_asDec b) _
  · exact fails_both hi (fails_asVer a) (fails_asVer b) _
  · exact fails_both hi (fails_asBool ha) (fails_asBool hb) _
  · exact fails_both hi (fails_asDate ha) (fails_asDate hb) _
  · exact fails_both hi (fails_asDateTime ha) (fails_asDateTime hb) _

theorem fails_any {f : α → Result Bool} : (xs : List α) → (∀ a ∈ xs, FailsBy P (f a)) → FailsBy P (anyM' f xs)
  | [], _ => fails_ok _
  | x :: xs, h => by
    rw [anyM']
    refine fails_bind' (h x (by simp)) fun b => ?_
    cases b
    · exact fails_any xs fun a ha => h a (by simp [ha])
    · exact fails_ok _

theorem fails_all {f : α → Result Bool} : (xs : List α) → (∀ a ∈ xs, FailsBy P (f a)) → FailsBy P (allM' f xs)
  | [], _ => fails_ok _
  | x :: xs, h => by
    rw [allM']
    refine fails_bind' (h x (by simp)) fun b => ?_
    cases b
    · exact fails_ok _
    · exact fails_all xs fun a ha => h a (by simp [ha])

theorem fails_validate (hi : P .invalidDataType) {l r : Value} {lt rt : DataType} (hl : l = .null → P .nullPointer)
    (hr : r = .null → P .nullPointer) : FailsBy P (validate l lt r rt) := by
  have one : ∀ (t : DataType) (v : Value), (v = .null → P .nullPointer) → FailsBy P (do
      let b ← isValid t v
      if !b then throw .invalidDataType
      : Result Unit) := fun t v h => fails_bind' (fails_isValid h) fun _ => fails_ite (fun _ => fails_err hi) fun _ => fails_ok _
  have two : validate l lt r rt = .ok () ∨ (validate l lt r rt = do
      let b ← isValid rt l
      if !b then throw .invalidDataType) ∨ (validate l lt r rt = do
      let b ← isValid lt r
      if !b then throw .invalidDataType) := by
    unfold validate
    cases lt <;> cases rt <;> first | exact .inl rfl | exact .inr (.inr rfl) | (refine .inr (.inl ?_); simp [DataType.numeric])
  rcases two with h | h | h <;> rw [h]
  · exact fails_ok _
  · exact one _ _ hl
  · exact one _ _ hr

theorem fails_logicalCmp (hi : P .invalidDataType) (op : CmpOp) {l r : Value} {lt rt : DataType} (hl : l = .null → P .nullPointer)
    (hr : r = .null → P .nullPointer) : FailsBy P (logicalCmp op l lt r rt) := by
  rw [logicalCmp_eq]
  refine fails_ite (fun _ => fails_err hi) fun _ => fails_bind' (fails_isValid hl) fun _ => fails_ite (fun _ => fails_err hi) fun _ =>
    fails_ite (fun _ => fails_err hi) fun _ => ?_
  have he : ∀ op, FailsBy P (evalEq op l lt r rt) := fun op => fails_bind' (fails_comparePrim hi _ hl hr) fun _ => fails_ok _
  have ho : ∀ op, FailsBy P (evalOrd op l lt r rt) := fun op =>
    fails_bind' (fails_validate hi hl hr) fun _ => fails_bind' (fails_comparePrim hi _ hl hr) fun _ => fails_ok _
  cases op <;> first | exact he _ | exact ho _

theorem fails_evalIn (hi : P .invalidDataType) {l : Value} {lt : DataType} {rs : List Typed} (hl : l = .null → P .nullPointer)
    (hr : ∀ r ∈ rs, r.1 = .null → P .nullPointer) : FailsBy P (evalIn l lt rs) :=
  fails_any rs fun r h => fails_bind' (fails_comparePrim hi _ hl (hr r h)) fun _ => fails_ok _

theorem fails_logicalIn (hi : P .invalidDataType) {l : Value} {lt : DataType} {rs : List Typed} (hl : l = .null → P .nullPointer)
    (hr : ∀ r ∈ rs, r.1 = .null → P .nullPointer) : FailsBy P (logicalIn l lt rs) := by
  rw [logicalIn_eq]
  exact fails_bind' (fails_isValid hl) fun _ => fails_ite (fun _ => fails_err hi) fun _ => fails_evalIn hi hl hr

theorem fails_isValidList {t : DataType} {v : Value} (h : ∀ xs, listElems? v = some xs → ∀ x ∈ xs, x = .null → P .nullPointer) :
    FailsBy P (isValidList t v) := by
  unfold isValidList
  split
  · rename_i xs e
    exact fails_all xs fun x hx => fails_isValid (h xs e x hx)
  · exact fails_ok _

theorem fails_logicalArray (hi : P .invalidDataType) (op : ArrOp) {l : Value} {lt : DataType} {rs : List Typed}
    (hl : ∀ xs, listElems? l = some xs → ∀ x ∈ xs, x = .null → P .nullPointer)
    (hc : (∀ xs, l ≠ .list xs) → (∃ xs, listElems? l = some xs) → P .classCast)
    (hr : ∀ r ∈ rs, r.1 = .null → P .nullPointer) : FailsBy P (logicalArray op l lt rs) := by
  rw [logicalArray_eq]
  refine fails_bind' (fails_isValidList hl) fun _ => fails_ite (fun _ => fails_err hi) fun _ => ?_
  unfold evalArray
  refine fails_bind (fails_isValidList hl) fun b hb => fails_ite (fun _ => fails_ok _) fun h0 => ?_
  split
  · rename_i xs
    have key : ∀ r ∈ rs, FailsBy P (evalIn r.1 r.2 (xs.map (fun x => (x, lt)))) := fun r hr' =>
      fails_evalIn hi (hr r hr') (by
        intro y hy
        obtain ⟨x, hx, rfl⟩ := List.mem_map.1 hy
        exact hl xs rfl x hx)
    cases op
    · exact fails_all _ key
    · exact fails_any _ key
  · rename_i hn
    refine fails_err (hc (fun xs h => hn xs h) ?_)
    unfold isValidList at hb
    split at hb
    · rename_i xs e; exact ⟨xs, e⟩
    · cases hb; simp at h0

/-! ### Arithmetic -/

/-- A type of numbers. -/
def isNum (t : DataType) : Prop := t = .integer ∨ t = .long ∨ t = .decimal

theorem isValid_dec {v : Value} (h : getDataType v = .decimal) (hv : isValid .decimal v = .ok true) :
    ∃ d, asDec v = .ok (some d) := by
  obtain ⟨o, ho, h1⟩ := bind_ok_inv hv
  cases o with
  | none => cases h1
  | some d => exact ⟨d, ho⟩

theorem type_integer {v : Value} (h : getDataType v = .integer) : ∃ n, v = .int n := by
  cases v with
  | int n => exact ⟨n, rfl⟩
  | str s => simp only [getDataType] at h; split at h <;> [cases h; (split at h <;> cases h)]
  | _ => cases h

theorem type_long {v : Value} (h : getDataType v = .long) : ∃ n, v = .long n := by
  cases v with
  | long n => exact ⟨n, rfl⟩
  | str s => simp only [getDataType] at h; split at h <;> [cases h; (split at h <;> cases h)]
  | _ => cases h

theorem num_dec {v : Value} (ht : isNum (getDataType v)) (hv : isValid (getDataType v) v = .ok true) :
    ∃ d, asDec v = .ok (some d) := by
  rcases ht with h | h | h
  · obtain ⟨n, rfl⟩ := type_integer h
    exact ⟨⟨n, 0⟩, by simp only [asDec, Value.text, Dec.parse_intStr]⟩
  · obtain ⟨n, rfl⟩ := type_long h
    exact ⟨⟨n, 0⟩, by simp only [asDec, Value.text, Dec.parse_intStr]⟩
  · rw [h] at hv; exact isValid_dec h hv

theorem toInt64_int {n : Int} (h : InInt32 n) : Dec.toInt64? ⟨n, 0⟩ = some n := by
  have := Spec.Whole.int (n := n) h
  have h2 := whole_asLong this
  simp only [asLong, Value.text, Dec.parse_intStr, Option.bind_some] at h2
  injection h2

theorem num_long {v : Value} (hb : ¬ W.big) (hv : Val W v) (ht : getDataType v = .integer ∨ getDataType v = .long) :
    ∃ n, asLong v = .ok (some n) ∧ InInt64 n := by
  rcases ht with h | h
  · obtain ⟨n, rfl⟩ := type_integer h
    rcases val_self hv with h | h
    · refine ⟨n, ?_, ?_⟩
      · simp only [asLong, Value.text, Dec.parse_intStr, Option.bind_some, toInt64_int h]
      · unfold InInt32 at h; unfold InInt64; omega
    · exact absurd h hb
  · obtain ⟨n, rfl⟩ := type_long h
    rcases val_self hv with h | h
    · exact ⟨n, rfl, h⟩
    · exact absurd h hb

theorem fails_dec {v : Value} (ht : isNum (getDataType v)) (hv : isValid (getDataType v) v = .ok true) :
    FailsBy P (getOpt (asDec v)) := by
  obtain ⟨d, h⟩ := num_dec ht hv
  exact fails_some h

theorem fails_getLong {v : Value} (hb : W.big → P .noSuchElement) (hv : Val W v)
    (ht : getDataType v = .integer ∨ getDataType v = .long) : FailsBy P (getOpt (asLong v)) := by
  by_cases h : W.big
  · intro e he
    have : asLong v = .ok none ∧ e = .noSuchElement := by
      generalize hr : asLong v = r at he
      match r, hr, he with
      | .ok none, _, he => cases he; exact ⟨rfl, rfl⟩
      | .error e', hr, _ => unfold asLong at hr; split at hr <;> cases hr
    rw [this.2]; exact hb h
  · obtain ⟨n, hn, _⟩ := num_long h hv ht
    exact fails_some hn

theorem fails_getInt {v : Value} (ht : getDataType v = .integer) : FailsBy P (getOpt (asInt v)) := by
  obtain ⟨n, rfl⟩ := type_integer ht
  exact fails_ok _

theorem notDec {t : DataType} (h : isNum t) (h' : t ≠ .decimal) : t = .integer ∨ t = .long := by
  rcases h with h | h | h
  · exact .inl h
  · exact .inr h
  · exact absurd h h'

theorem fails_castDecimal (h : P .arithmetic) (d : Dec) : FailsBy P (castDecimal d) := by
  unfold castDecimal intValueExact
  refine fails_ite (fun _ => fails_bind' (fails_ite (fun _ => fails_ok _) fun _ => fails_err h) fun _ => fails_ok _) fun _ => fails_ok _

theorem fails_castDouble (h : P .numberFormat) (d : Dbl) : FailsBy P (castDouble d) := by
  cases d <;> first | exact fails_err h | exact fails_ok _

theorem fails_divDown (h : P .arithmetic) (a b : Dec) (n : Int) : FailsBy P (a.divDown b n) := by
  unfold Dec.divDown
  exact fails_ite (fun _ => fails_err h) fun _ => fails_ok _

theorem fails_divExact (h : P .arithmetic) (a b : Dec) (n : Int) : FailsBy P (a.divExact b n) := by
  unfold Dec.divExact
  exact fails_ite (fun _ => fails_err h) fun _ => fails_ite (fun _ => fails_ok _) fun _ => fails_err h

theorem fails_arithBinary (env : Env) (op : ArithOp) {l r : Value} (hl : Val W l) (hr : Val W r) (hi : P .invalidDataType)
    (hb : W.big → P .noSuchElement) (hd : op = .div ∨ op = .mod → P .arithmetic) (he : op = .exp → P .numberFormat)
    (hn : W.null → P .nullPointer) :
    FailsBy P (arithBinary env op l (getDataType l) r (getDataType r)) := by
  rw [arithBinary_eq]
  refine fails_ite (fun _ => fails_err hi) fun h1 => fails_bind (fails_isValid (fun h => hn (null_world hl h))) fun b hvl =>
    fails_ite (fun _ => fails_err hi) fun h2 => fails_ite (fun _ => fails_err hi) fun h3 =>
    fails_bind ?_ fun b' hvr => fails_ite (fun _ => fails_err hi) fun h4 => ?_
  · unfold rightValid
    split
    · exact fails_ok _
    · exact fails_isValid (fun h => hn (null_world hr h))
  have hbt : b = true := by simpa using h2
  have hbt' : b' = true := by simpa using h4
  subst hbt hbt'
  have a1 : op.allows (getDataType l) = true := by simpa using h1
  have a3 : op.allows (getDataType r) = true := by simpa using h3
  have right : isNum (getDataType r) → isValid (getDataType r) r = .ok true := by
    intro hnr
    unfold rightValid at hvr
    split at hvr
    · rcases hnr with h | h | h <;> cases h
    · exact hvr
  have numb : ∀ {t : DataType}, op ≠ .add → op.allows t = true → isNum t := by
    intro t ho h
    cases op <;> cases t <;> first | exact absurd rfl ho | (cases h; done) | exact .inl rfl | exact .inr (.inl rfl) | exact .inr (.inr rfl)
  have notD : ∀ {x y : DataType}, ¬ ((x == DataType.decimal || y == DataType.decimal) = true) → x ≠ .decimal ∧ y ≠ .decimal := by
    intro x y h
    simp only [Bool.or_eq_true, beq_iff_eq, not_or] at h
    exact h
  have notL : ∀ {x y : DataType}, ¬ ((x == DataType.long || y == DataType.long) = true) → x ≠ .long ∧ y ≠ .long := by
    intro x y h
    simp only [Bool.or_eq_true, beq_iff_eq, not_or] at h
    exact h
  cases op with
  | add =>
    simp only [evalArithOp]
    refine fails_ite (fun _ => fails_ok _) fun hs => ?_
    have hs' : isStringType (getDataType l) = false ∧ isStringType (getDataType r) = false := by simpa using hs
    have nl : isNum (getDataType l) := by
      revert a1; rw [ArithOp.allows, hs'.1]; unfold isNum; cases getDataType l <;> simp
    have nr : isNum (getDataType r) := by
      revert a3; rw [ArithOp.allows, hs'.2]; unfold isNum; cases getDataType r <;> simp
    refine fails_ite (fun _ => fails_bind' (fails_dec nl hvl) fun _ => fails_bind' (fails_dec nr (right nr)) fun _ => fails_ok _) fun h => ?_
    exact fails_bind' (fails_getLong hb hl (notDec nl (notD h).1)) fun _ =>
      fails_bind' (fails_getLong hb hr (notDec nr (notD h).2)) fun _ => fails_ok _
  | sub =>
    have nl := numb (by decide) a1
    have nr := numb (by decide) a3
    simp only [evalArithOp]
    refine fails_ite (fun _ => fails_bind' (fails_dec nl hvl) fun _ => fails_bind' (fails_dec nr (right nr)) fun _ => fails_ok _) fun h =>
      fails_ite (fun _ => ?_) fun h' => ?_
    · exact fails_bind' (fails_getLong hb hl (notDec nl (notD h).1)) fun _ =>
        fails_bind' (fails_getLong hb hr (notDec nr (notD h).2)) fun _ => fails_ok _
    · exact fails_bind' (fails_getInt ((notDec nl (notD h).1).resolve_right (notL h').1)) fun _ =>
        fails_bind' (fails_getInt ((notDec nr (notD h).2).resolve_right (notL h').2)) fun _ => fails_ok _
  | mul =>
    have nl := numb (by decide) a1
    have nr := numb (by decide) a3
    simp only [evalArithOp]
    refine fails_ite (fun _ => fails_bind' (fails_dec nl hvl) fun _ => fails_bind' (fails_dec nr (right nr)) fun _ => fails_ok _) fun h => ?_
    exact fails_bind' (fails_getLong hb hl (notDec nl (notD h).1)) fun _ =>
      fails_bind' (fails_getLong hb hr (notDec nr (notD h).2)) fun _ => fails_ok _
  | div =>
    have nl := numb (by decide) a1
    have nr := numb (by decide) a3
    simp only [evalArithOp]
    exact fails_bind' (fails_dec nl hvl) fun _ => fails_bind' (fails_dec nr (right nr)) fun _ =>
      fails_bind' (fails_divDown (hd (.inl rfl)) _ _ _) fun _ => fails_castDecimal (hd (.inl rfl)) _
  | mod =>
    have nl := numb (by decide) a1
    have nr := numb (by decide) a3
    have dl : getDataType l ≠ .decimal := by intro h; rw [h] at a1; cases a1
    have dr : getDataType r ≠ .decimal := by intro h; rw [h] at a3; cases a3
    simp only [evalArithOp]
    refine fails_ite (fun _ => ?_) fun h' => ?_
    · exact fails_bind' (fails_getLong hb hl (notDec nl dl)) fun _ =>
        fails_bind' (fails_getLong hb hr (notDec nr dr)) fun _ => fails_ite (fun _ => fails_err (hd (.inr rfl))) fun _ => fails_ok _
    · exact fails_bind' (fails_getInt ((notDec nl dl).resolve_right (notL h').1)) fun _ =>
        fails_bind' (fails_getInt ((notDec nr dr).resolve_right (notL h').2)) fun _ =>
        fails_ite (fun _ => fails_err (hd (.inr rfl))) fun _ => fails_ok _
  | exp =>
    have nl := numb (by decide) a1
    have nr := numb (by decide) a3
    simp only [evalArithOp]
    refine fails_ite (fun _ => fails_bind' (fails_dec nl hvl) fun _ => fails_bind' (fails_dec nr (right nr)) fun _ =>
      fails_castDouble (he rfl) _) fun h => ?_
    exact fails_bind' (fails_getLong hb hl (notDec nl (notD h).1)) fun _ =>
      fails_bind' (fails_getLong hb hr (notDec nr (notD h).2)) fun _ => fails_castDouble (he rfl) _

theorem val_tmod32 {a : Int} (b : Int) (h : InInt32 a ∨ W.big) : InInt32 (a.tmod b) ∨ W.big := h.imp (tmod_in32 b) id
theorem val_tmod64 {a : Int} (b : Int) (h : InInt64 a ∨ W.big) : InInt64 (a.tmod b) ∨ W.big := h.imp (tmod_in64 b) id

theorem yields_getLong {v : Value} (hv : Val W v) : Yields (fun n => InInt64 n ∨ W.big) (getOpt (asLong v)) := by
  intro n h
  have key : asLong v = .ok (some n) := by
    generalize asLong v = r at h
    match r, h with
    | .ok (some m), h => injection h with h; rw [h]
  cases v with
  | long m => injection key with key; injection key with key; rw [← key]; exact val_self hv
  | null => cases key
  | _ => injection key with key; exact .inl (toInt64_in key)

theorem yields_getInt {v : Value} (hv : Val W v) : Yields (fun n => InInt32 n ∨ W.big) (getOpt (asInt v)) := by
  intro n h
  have key : asInt v = .ok (some n) := by
    generalize asInt v = r at h
    match r, h with
    | .ok (some m), h => injection h with h; rw [h]
  cases v with
  | int m => injection key with key; injection key with key; rw [← key]; exact val_self hv
  | null => cases key
  | _ => injection key with key; exact .inl (toInt32_in key)

theorem val_evalArithOp (env : Env) (op : ArithOp) {l : Value} (lt : DataType) {r : Value} (rt : DataType) (hl : Val W l) :
    Yields (Val W) (evalArithOp env op l lt r rt) := by
  cases op <;> simp only [evalArithOp]
  · exact yields_ite (yields_ok (val_str _)) (yields_ite (yields_bind' fun _ => yields_bind' fun _ => yields_ok (val_dec _))
      (yields_bind' fun _ => yields_bind' fun _ => yields_ok (val_castLong (wrap64_in _))))
  · exact yields_ite (yields_bind' fun _ => yields_bind' fun _ => yields_ok (val_dec _))
      (yields_ite (yields_bind' fun _ => yields_bind' fun _ => yields_ok (val_long (.inl (wrap64_in _))))
        (yields_bind' fun _ => yields_bind' fun _ => yields_ok (val_int (.inl (wrap32_in _)))))
  · exact yields_ite (yields_bind' fun _ => yields_bind' fun _ => yields_ok (val_dec _))
      (yields_bind' fun _ => yields_bind' fun _ => yields_ok (val_castLong (wrap64_in _)))
  · exact yields_bind' fun _ => yields_bind' fun _ => yields_bind' fun _ => val_castDecimal _
  · refine yields_ite (yields_bind (yields_getLong hl) fun a ha => yields_bind' fun b => ?_)
      (yields_bind (yields_getInt hl) fun a ha => yields_bind' fun b => ?_)
    · split
      · exact yields_err _
      · exact yields_ok (val_long (val_tmod64 b ha))
    · split
      · exact yields_err _
      · exact yields_ok (val_int (val_tmod32 b ha))
  · exact yields_ite (yields_bind' fun _ => yields_bind' fun _ => val_castDouble _)
      (yields_bind' fun _ => yields_bind' fun _ => val_castDouble _)

theorem val_arithBinary (env : Env) (op : ArithOp) {l : Value} (lt : DataType) {r : Value} (rt : DataType) (hl : Val W l) :
    Yields (Val W) (arithBinary env op l lt r rt) := by
  rw [arithBinary_eq]
  exact yields_ite (yields_err _) (yields_bind' fun _ => yields_ite (yields_err _) (yields_ite (yields_err _)
    (yields_bind' fun _ => yields_ite (yields_err _) (val_evalArithOp _ _ _ _ hl))))

theorem val_arithNegate (v : Value) (t : DataType) : Yields (Val W) (arithNegate v t) := by
  rw [arithNegate_eq]
  refine yields_ite (yields_err _) (yields_bind' fun _ => yields_ite (yields_err _) ?_)
  unfold evalNeg
  split
  · exact yields_ok (val_dec _)
  · exact yields_err _
  · exact yields_ok (val_long (.inl (wrap64_in _)))
  · exact yields_err _
  · exact yields_ok (val_int (.inl (wrap32_in _)))
  · exact yields_err _

theorem type_decimal {v : Value} (h : getDataType v = .decimal) : (∃ d, v = .dec d) ∨ (∃ t, v = .dbl t) ∨ ∃ t, v = .flt t := by
  cases v with
  | dec d => exact .inl ⟨d, rfl⟩
  | dbl t => exact .inr (.inl ⟨t, rfl⟩)
  | flt t => exact .inr (.inr ⟨t, rfl⟩)
  | str s => simp only [getDataType] at h; split at h <;> [cases h; (split at h <;> cases h)]
  | _ => cases h

theorem fails_arithNegate {v : Value} (hv : Val W v) (hi : P .invalidDataType) (hf : W.flt → P .classCast)
    (hn : W.null → P .nullPointer) : FailsBy P (arithNegate v (getDataType v)) := by
  rw [arithNegate_eq]
  refine fails_ite (fun _ => fails_err hi) fun h1 => fails_bind' (fails_isValid (fun h => hn (null_world hv h))) fun _ =>
    fails_ite (fun _ => fails_err hi) fun _ => ?_
  have h : isNum (getDataType v) := by
    revert h1; unfold isNum; cases getDataType v <;> simp
  rcases h with h | h | h
  · obtain ⟨n, rfl⟩ := type_integer h; exact fails_ok _
  · obtain ⟨n, rfl⟩ := type_long h; exact fails_ok _
  · rcases type_decimal h with ⟨d, rfl⟩ | ⟨t, rfl⟩ | ⟨t, rfl⟩
    · exact fails_ok _
    · exact fails_err (hf (val_self hv))
    · exact fails_err (hf (val_self hv))

/-! ### Functions -/

/-- Arguments: every value with its type. -/
def Args (W : Givens) (items : List Typed) : Prop := ∀ x ∈ items, Val W x.1 ∧ x.2 = getDataType x.1

theorem args_tail {x : Typed} {xs : List Typed} (h : Args W (x :: xs)) : Args W xs := fun y hy => h y (by simp [hy])

theorem flatten_args : (vs : List Value) → (∀ v ∈ vs, Val W v) → Args W (flattenItems vs)
  | [], _ => by intro x hx; cases hx
  | v :: vs, h => by
    have ih := flatten_args vs fun w hw => h w (by simp [hw])
    have hv := h v (by simp)
    have lst : ∀ xs, listElems? v = some xs → Args W (xs.map (fun x => (x, getDataType x))) := by
      intro xs e y hy
      obtain ⟨x, hx, rfl⟩ := List.mem_map.1 hy
      exact ⟨val_item hv e hx, rfl⟩
    rw [flattenItems_cons]
    intro y hy
    rcases List.mem_append.1 hy with hy | hy
    · split at hy
      · exact lst _ rfl y hy
      · exact lst _ rfl y hy
      · rw [List.mem_singleton] at hy; subst hy; exact ⟨hv, rfl⟩
    · exact ih y hy

theorem flatten_nil {vs : List Value} (hne : vs ≠ []) (h : flattenItems vs = []) (hv : ∀ v ∈ vs, Val W v) : W.empty := by
  cases vs with
  | nil => exact absurd rfl hne
  | cons v vs =>
    rw [flattenItems_cons, List.append_eq_nil_iff] at h
    have hv := val_self (hv v (by simp))
    cases v with
    | list xs => exact hv (List.map_eq_nil_iff.1 h.1)
    | coll xs => exact hv.2 (List.map_eq_nil_iff.1 h.1)
    | _ => cases h.1

theorem fails_mapGetOpt {f : Value → Result (Option α)} : (xs : List Typed) → (∀ x ∈ xs, FailsBy P (getOpt (f x.1))) →
    FailsBy P (mapGetOpt f xs)
  | [], _ => fails_ok _
  | x :: xs, h => by
    rw [mapGetOpt]
    exact fails_bind' (h x (by simp)) fun _ => fails_bind' (fails_mapGetOpt xs fun y hy => h y (by simp [hy])) fun _ => fails_ok _

theorem mapGetOpt_length {f : Value → Result (Option α)} : (xs : List Typed) → Yields (fun ys => ys.length = xs.length) (mapGetOpt f xs)
  | [] => yields_ok rfl
  | x :: xs => by
    rw [mapGetOpt]
    exact yields_bind' fun _ => yields_bind (mapGetOpt_length xs) fun ys hy => yields_ok (by simp [hy])

theorem validateItems_all : (xs : List Typed) → validateItems xs = .ok () → ∀ x ∈ xs, isValid x.2 x.1 = .ok true
  | [], _, _, hx => by cases hx
  | x :: xs, h, y, hy => by
    rw [validateItems_cons] at h
    obtain ⟨b, hb, h⟩ := bind_ok_inv h
    cases b with
    | false => cases h
    | true =>
      rcases List.mem_cons.1 hy with rfl | hy
      · exact hb
      · exact validateItems_all xs h y hy

theorem fails_validateItems (hi : P .invalidDataType) : (xs : List Typed) → (∀ x ∈ xs, x.1 = .null → P .nullPointer) →
    FailsBy P (validateItems xs)
  | [], _ => fails_ok _
  | x :: xs, h => by
    rw [validateItems_cons]
    exact fails_bind' (fails_isValid (h x (by simp))) fun _ => fails_ite (fun _ => fails_err hi) fun _ =>
      fails_validateItems hi xs fun y hy => h y (by simp [hy])

theorem sort_length (xs : List Dec) : (sortDecs xs).length = xs.length := by
  have ins : ∀ (x : Dec) (ys : List Dec), (insertDec x ys).length = ys.length + 1 := fun x ys => by
    have := (insertDec_perm x ys).length_eq; simpa using this
  have go : ∀ (xs acc : List Dec), (xs.foldl (fun acc x => insertDec x acc) acc).length = xs.length + acc.length := by
    intro xs
    induction xs with
    | nil => intro acc; simp
    | cons x xs ih => intro acc; rw [List.foldl_cons, ih, ins]; simp; omega
  have := go xs []
  simpa [sortDecs] using this

theorem fails_getAt {xs : List Dec} {i : Nat} (h : i < xs.length) : FailsBy P (getAt xs i) := by
  unfold getAt
  rw [List.getElem?_eq_getElem h]
  exact fails_ok _

/-- The functions whose result can overflow or fail to divide. -/
def FuncType.exact : FuncType → Bool
  | .int | .len | .daysElapsed => false
  | _ => true

theorem anyType_false {t : DataType} {items : List Typed} (h : ¬ anyType t items = true) : ∀ x ∈ items, x.2 ≠ t := by
  intro x hx e
  apply h
  unfold anyType
  rw [List.any_eq_true]
  exact ⟨x, hx, by simp [e]⟩

section
variable {items : List Typed} (hb : W.big → P .noSuchElement) (ha : Args W items) (hn : ∀ x ∈ items, isNum x.2)
  (hv : ∀ x ∈ items, isValid x.2 x.1 = .ok true)
include ha hn hv

theorem fails_decs : FailsBy P (mapGetOpt asDec items) :=
  fails_mapGetOpt _ fun x hx => fails_dec (by rw [← (ha x hx).2]; exact hn x hx) (by have := hv x hx; rwa [(ha x hx).2] at this)

include hb in
omit hv in
theorem fails_longs (h : ¬ anyType .decimal items = true) : FailsBy P (mapGetOpt asLong items) :=
  fails_mapGetOpt _ fun x hx => fails_getLong hb (ha x hx).1 (by
    have h1 := anyType_false h x hx
    have h2 := hn x hx
    rw [(ha x hx).2] at h1 h2
    exact notDec h2 h1)

omit hv in
theorem fails_ints (h : ¬ anyType .decimal items = true) (h' : ¬ anyType .long items = true) : FailsBy P (mapGetOpt asInt items) :=
  fails_mapGetOpt _ fun x hx => fails_getInt (by
    have h1 := anyType_false h x hx
    have h1' := anyType_false h' x hx
    have h2 := hn x hx
    rw [(ha x hx).2] at h1 h2 h1'
    exact (notDec h2 h1).resolve_right h1')
end

theorem fails_evalFn (env : Env) (f : FuncType) {items : List Typed} (hb : W.big → P .noSuchElement) (ha : Args W items)
    (hne : items ≠ []) (hal : ∀ x ∈ items, f.allows x.2 = true) (hv : ∀ x ∈ items, isValid x.2 x.1 = .ok true)
    (hx : f.exact = true → P .arithmetic) (hd : f = .daysElapsed → P .invalidFunctionArgument) (h0 : W.null → P .nullPointer) :
    FailsBy P (evalFn env f items) := by
  have hpos : 0 < items.length := List.length_pos_iff.2 hne
  have numb : f ≠ .len → f ≠ .daysElapsed → ∀ x ∈ items, isNum x.2 := by
    intro h1 h2 x hx
    have := hal x hx
    revert this
    generalize x.2 = t
    cases f <;> cases t <;> simp [FuncType.allows, isNum] at * 
  have ne : ∀ {β : Type} {g : Value → Result (Option β)} {ys : List β}, mapGetOpt g items = .ok ys → ys ≠ [] := by
    rintro β g ys h rfl
    have := mapGetOpt_length items _ h
    simp at this; omega
  cases f with
  | min =>
    have hn := numb (by decide) (by decide)
    simp only [evalFn, minFn]
    refine fails_ite (fun _ => fails_bind (fails_decs ha hn hv) fun ys hy => ?_) fun h1 =>
      fails_ite (fun _ => fails_bind (fails_longs hb ha hn h1) fun ys hy => ?_) fun h2 =>
      fails_bind (fails_ints ha hn h1 h2) fun ys hy => ?_
    all_goals
      cases ys with
      | nil => exact absurd rfl (ne hy)
      | cons y ys => first | exact fails_castDecimal (hx rfl) _ | exact fails_ok _
  | max =>
    have hn := numb (by decide) (by decide)
    simp only [evalFn, maxFn]
    refine fails_ite (fun _ => fails_bind (fails_decs ha hn hv) fun ys hy => ?_) fun h1 =>
      fails_ite (fun _ => fails_bind (fails_longs hb ha hn h1) fun ys hy => ?_) fun h2 =>
      fails_bind (fails_ints ha hn h1 h2) fun ys hy => ?_
    all_goals
      cases ys with
      | nil => exact absurd rfl (ne hy)
      | cons y ys => first | exact fails_castDecimal (hx rfl) _ | exact fails_ok _
  | avg =>
    have hn := numb (by decide) (by decide)
    simp only [evalFn, avgFn]
    exact fails_ite (fun _ => fails_bind' (fails_decs ha hn hv) fun _ => fails_bind' (fails_divDown (hx rfl) _ _ _) fun _ =>
      fails_castDecimal (hx rfl) _) fun h1 => fails_bind' (fails_longs hb ha hn h1) fun _ =>
      fails_bind' (fails_divExact (hx rfl) _ _ _) fun _ => fails_castDecimal (hx rfl) _
  | mean =>
    have hn := numb (by decide) (by decide)
    simp only [evalFn, avgFn]
    exact fails_ite (fun _ => fails_bind' (fails_decs ha hn hv) fun _ => fails_bind' (fails_divDown (hx rfl) _ _ _) fun _ =>
      fails_castDecimal (hx rfl) _) fun h1 => fails_bind' (fails_longs hb ha hn h1) fun _ =>
      fails_bind' (fails_divExact (hx rfl) _ _ _) fun _ => fails_castDecimal (hx rfl) _
  | sum =>
    have hn := numb (by decide) (by decide)
    simp only [evalFn, sumFn]
    exact fails_ite (fun _ => fails_bind' (fails_decs ha hn hv) fun _ => fails_castDecimal (hx rfl) _) fun h1 =>
      fails_bind' (fails_longs hb ha hn h1) fun _ => fails_ok _
  | median =>
    have hn := numb (by decide) (by decide)
    simp only [evalFn, medianFn]
    refine fails_bind (fails_decs ha hn hv) fun ys hy => ?_
    have hl := mapGetOpt_length items _ hy
    refine fails_ite (fun h => ?_) fun h => ?_
    · exact fails_bind' (fails_getAt (by rw [sort_length, hl]; omega)) fun _ =>
        fails_bind' (fails_getAt (by rw [sort_length, hl]; omega)) fun _ =>
        fails_bind' (fails_divDown (hx rfl) _ _ _) fun _ => fails_castDecimal (hx rfl) _
    · exact fails_bind' (fails_getAt (by rw [sort_length, hl]; omega)) fun _ => fails_castDecimal (hx rfl) _
  | mode =>
    simp only [evalFn, modeFn]
    split
    · exact absurd rfl hne
    · split <;> first | exact fails_castDecimal (hx rfl) _ | exact fails_ok _
  | int =>
    have hn := numb (by decide) (by decide)
    simp only [evalFn, intFn]
    split
    · exact absurd rfl hne
    · rename_i v t xs
      have h1 := ha (v, t) (by simp)
      have h2 := hn (v, t) (by simp)
      have h3 := hv (v, t) (by simp)
      simp only at h1 h2 h3
      refine fails_ite (fun h => ?_) fun h => fails_ite (fun h => ?_) fun h => fails_ok _
      · exact fails_bind' (fails_dec (by rw [← h1.2]; exact h2) (by rw [h1.2] at h3; exact h3)) fun _ => fails_ok _
      · have : getDataType v = .long := by rw [← h1.2]; simpa using h
        obtain ⟨n, rfl⟩ := type_long this
        exact fails_ok _
  | len =>
    simp only [evalFn, lenFn]
    split <;> exact fails_ok _
  | daysElapsed =>
    simp only [evalFn, daysFn]
    split
    · exact fails_ok _
    · split
      · exact fails_ok _
      · exact fails_err (hd rfl)
    · exact fails_err (h0 (val_self (ha _ (List.mem_singleton.2 rfl)).1))
    · exact fails_err (hd rfl)

theorem fails_callFn (env : Env) (f : FuncType) {items : List Typed} (hi : P .invalidDataType) (hb : W.big → P .noSuchElement)
    (ha : Args W items) (he : items = [] → P .invalidExpression) (hc : f ≠ .len → P .invalidContainerType)
    (hx : f.exact = true → P .arithmetic) (hd : f = .daysElapsed → P .invalidFunctionArgument) (h0 : W.null → P .nullPointer) :
    FailsBy P (callFn env f items) := by
  rw [callFn_eq]
  refine fails_ite (fun h => fails_err (he (by simpa using h))) fun h1 => fails_ite (fun h => fails_err (hc ?_)) fun h2 =>
    fails_ite (fun _ => fails_err hi) fun h3 =>
    fails_bind (fails_validateItems hi _ fun x hx hn => h0 (null_world (ha x hx).1 hn)) fun u hu =>
    fails_evalFn env f hb ha (by simpa using h1) ?_ (validateItems_all _ hu) hx hd h0
  · rintro rfl
    simp [FuncType.allowsMany, FuncType.allowsOne] at h
  · have : items.all (fun x => f.allows x.2) = true := by simpa using h3
    exact List.all_eq_true.1 this

theorem val_evalFn (env : Env) (f : FuncType) {items : List Typed} (ha : Args W items) (hal : ∀ x ∈ items, f.allows x.2 = true)
    (hb : f = .len ∨ f = .daysElapsed → W.big) : Yields (Val W) (evalFn env f items) := by
  cases f with
  | min | max =>
    simp only [evalFn, minFn, maxFn]
    refine yields_ite (yields_bind' fun ys => ?_) (yields_ite (yields_bind' fun ys => ?_) (yields_bind' fun ys => ?_))
    all_goals
      cases ys with
      | nil => exact yields_err _
      | cons y ys => first | exact val_castDecimal _ | exact yields_ok (val_castWhole _)
  | avg | mean =>
    simp only [evalFn, avgFn]
    exact yields_ite (yields_bind' fun _ => yields_bind' fun _ => val_castDecimal _)
      (yields_bind' fun _ => yields_bind' fun _ => val_castDecimal _)
  | sum =>
    simp only [evalFn, sumFn]
    exact yields_ite (yields_bind' fun _ => val_castDecimal _) (yields_bind' fun _ => yields_ok (val_castWhole _))
  | median =>
    simp only [evalFn, medianFn]
    exact yields_bind' fun _ => yields_ite (yields_bind' fun _ => yields_bind' fun _ => yields_bind' fun _ => val_castDecimal _)
      (yields_bind' fun _ => val_castDecimal _)
  | mode =>
    have go : ∀ (vs : List Value) (hm : List (Value × Nat)) (mx : Nat) (temp : Value), (∀ v ∈ vs, Val W v) → Val W temp →
        Val W (modeGo vs hm mx temp) := by
      intro vs
      induction vs with
      | nil => intro hm mx temp _ ht; exact ht
      | cons v vs ih =>
        intro hm mx temp h ht
        have h' : ∀ w ∈ vs, Val W w := fun w hw => h w (by simp [hw])
        rw [modeGo]
        split
        · split
          · exact ih _ _ _ h' (h v (by simp))
          · exact ih _ _ _ h' ht
        · exact ih _ _ _ h' ht
    simp only [evalFn, modeFn]
    split
    · exact yields_err _
    · rename_i x xs
      have hm : Val W (modeGo ((x :: xs).map Prod.fst) [] 1 x.1) := by
        refine go _ _ _ _ (fun v hv => ?_) (ha x (by simp)).1
        obtain ⟨y, hy, rfl⟩ := List.mem_map.1 hv
        exact (ha y hy).1
      generalize modeGo ((x :: xs).map Prod.fst) [] 1 x.1 = r at hm
      split
      · exact val_castDecimal _
      · rename_i n
        rcases val_self hm with h | h
        · exact yields_ok (val_castLong h)
        · refine yields_ok ?_
          unfold castLong
          split
          · exact val_int (.inr h)
          · exact val_long (.inr h)
      · exact yields_ok hm
  | int =>
    simp only [evalFn, intFn]
    split
    · exact yields_err _
    · rename_i v t xs
      refine yields_ite (yields_bind' fun _ => yields_ok (val_int (.inl ?_))) (yields_ite ?_ (yields_ok (ha (v, t) (by simp)).1))
      · unfold Dec.intValue; exact wrap32_in _
      · split
        · exact yields_ok (val_int (.inl (wrap32_in _)))
        · exact yields_err _
  | len =>
    simp only [evalFn, lenFn]
    split <;> exact yields_ok (val_int (.inr (hb (.inl rfl))))
  | daysElapsed =>
    simp only [evalFn, daysFn]
    split
    · exact yields_ok (val_long (.inr (hb (.inr rfl))))
    · split
      · exact yields_ok (val_long (.inr (hb (.inr rfl))))
      · exact yields_err _
    · exact yields_err _
    · exact yields_err _

theorem val_callFn (env : Env) (f : FuncType) {items : List Typed} (ha : Args W items) (hb : f = .len ∨ f = .daysElapsed → W.big) :
    Yields (Val W) (callFn env f items) := by
  rw [callFn_eq]
  refine yields_ite (yields_err _) (yields_ite (yields_err _) ?_)
  split
  · exact yields_err _
  · rename_i h
    refine yields_bind' fun _ => val_evalFn env f ha ?_ hb
    have : items.all (fun x => f.allows x.2) = true := by simpa using h
    exact List.all_eq_true.1 this

end BoolParser
