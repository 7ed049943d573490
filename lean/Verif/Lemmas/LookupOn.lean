import Verif.Lemmas.Lookup
import Verif.Spec.Families
/-!
# Reading through registries of which some types are the user's
-/

namespace BoolParser
open Spec

/-- Every read of an operator, a function or a type in `A` sees the library's own object. -/
structure Live.On (L : Live) (A : DataType → Prop) : Prop where
  operator : ∀ k o, L.hist k (.operator o) = some .builtin
  function : ∀ k f, L.hist k (.function f) = some .builtin
  type : ∀ k t, A t → L.hist k (.dataType t) = some .builtin

variable {L : Live} {A : DataType → Prop}

theorem refines_bind_of {α β : Type} {m : M α} {r : Result α} {f : α → M β} {g : α → Result β} (h : Refines m r)
    (hf : ∀ a, r = .ok a → Refines (f a) (g a)) : Refines (m >>= f) (r >>= g) := by
  cases r with
  | ok a => exact refines_bind_ok h (hf a rfl)
  | error e =>
    intro k
    have hk := h k
    show Except.map Prod.fst ((m k) >>= fun p => f p.1 p.2) = _
    rw [outcomeAt] at hk
    cases hm : m k with
    | error e' => rw [hm] at hk; cases hk; rfl
    | ok p => rw [hm] at hk; cases hk

theorem reads {s : Slot} {i : Option Impl} (h : ∀ k, L.hist k s = i) : Refines (readSlot L s) (.ok i) := by
  intro k
  show Except.map Prod.fst (Except.ok (L.hist k s, k + 1)) = _
  rw [h k]; rfl

theorem on_typeObj (h : L.On A) {t : DataType} (ht : A t) : Refines (typeObj L t) (.ok (builtinObj t)) :=
  refines_bind_ok (reads fun k => h.type k t ht) (refines_pure _)

theorem on_castObj (h : L.On A) {t : DataType} (ht : A t) : Refines (castObj L t) (.ok ()) :=
  refines_bind_ok (reads fun k => h.type k t ht) (refines_pure _)

theorem on_needOperator (h : L.On A) (o : Operator) : Refines (needOperator L o) (.ok ()) :=
  refines_bind_ok (reads fun k => h.operator k o) (refines_pure _)

theorem on_isValid (h : L.On A) {t : DataType} (ht : A t) (v : Value) : Refines (isValidL L t v) (isValid t v) :=
  refines_bind_ok (on_typeObj h ht) (refines_lift _)

theorem on_compare (h : L.On A) {t : DataType} (ht : A t) (a b : Value) :
    Refines (comparePrimL L t a b) (comparePrim t a b) := by
  rw [← builtin_compare (L := L)]
  have hv : ∀ v, Refines (getValueL L t v) (need (builtinValue t v)) := fun v =>
    refines_bind_ok (on_typeObj h ht) (refines_lift _)
  exact refines_bind (hv a) fun x => refines_bind (hv b) fun y => refines_lift _

theorem comparable_among {lt rt : DataType} (hl : A lt) (hr : A rt) : A (comparableType lt rt) := by
  unfold comparableType; split <;> assumption

theorem order_among {lt rt : DataType} (hl : A lt) (hr : A rt) : A (orderType lt rt) := by
  unfold orderType
  split
  · split <;> assumption
  · exact comparable_among hl hr

theorem on_eq (h : L.On A) (op : CmpOp) (l : Value) {lt : DataType} (hl : A lt) (r : Value) {rt : DataType} (hr : A rt) :
    Refines (evalEqL L op l lt r rt) (evalEq op l lt r rt) :=
  refines_bind (on_compare h (comparable_among hl hr) _ _) fun _ => refines_pure _

theorem on_validate (h : L.On A) (l : Value) {lt : DataType} (hl : A lt) (r : Value) {rt : DataType} (hr : A rt) :
    Refines (validateL L l lt r rt) (validate l lt r rt) := by
  rw [validateL, validate]
  refine refines_ite (fun _ => refines_pure ()) fun _ => ?_
  have hs : Refines (isValidL L lt r >>= fun b => if !b then lift (.error .invalidDataType) else pure ())
      (isValid lt r >>= fun b => if !b then throw .invalidDataType else pure ()) :=
    refines_bind (on_isValid h hl r) fun b => refines_ite (fun _ => refines_lift _) (fun _ => refines_pure ())
  cases lt.numeric <;> cases rt.numeric
  · exact refines_bind (on_isValid h hr _) fun _ => refines_check hs
  · exact refines_bind (on_isValid h hr _) fun _ => refines_check (refines_pure ())
  · exact hs
  · exact refines_pure ()

theorem on_ord (h : L.On A) (op : CmpOp) (l : Value) {lt : DataType} (hl : A lt) (r : Value) {rt : DataType} (hr : A rt) :
    Refines (evalOrdL L op l lt r rt) (evalOrd op l lt r rt) :=
  refines_bind (on_validate h _ hl _ hr) fun _ => refines_bind (on_compare h (order_among hl hr) _ _) fun _ =>
    refines_pure _

theorem on_cmpOp (h : L.On A) (op : CmpOp) (l : Value) {lt : DataType} (hl : A lt) (r : Value) {rt : DataType}
    (hr : A rt) : Refines (evalCmpOpL L op l lt r rt) (evalCmpOp op l lt r rt) := by
  cases op
  · exact on_eq h _ _ hl _ hr
  · exact on_eq h _ _ hl _ hr
  · exact on_ord h _ _ hl _ hr
  · exact on_ord h _ _ hl _ hr
  · exact on_ord h _ _ hl _ hr
  · exact on_ord h _ _ hl _ hr

theorem on_logicalCmp (h : L.On A) (op : CmpOp) (l : Value) {lt : DataType} (hl : A lt) (r : Value) {rt : DataType}
    (hr : A rt) : Refines (logicalCmpL L op l lt r rt) (logicalCmp op l lt r rt) := by
  unfold logicalCmpL logicalCmp
  refine refines_bind_ok (on_needOperator h _) ?_
  refine refines_check ?_
  refine refines_bind (on_isValid h hl _) fun b => ?_
  refine refines_check ?_
  refine refines_check ?_
  exact refines_bind_ok (on_needOperator h _) (on_cmpOp h _ _ hl _ hr)

theorem on_any {α : Type} {f : α → M Bool} {g : α → Result Bool} (xs : List α)
    (hf : ∀ a ∈ xs, Refines (f a) (g a)) : Refines (anyL f xs) (anyM' g xs) := by
  induction xs with
  | nil => exact refines_pure _
  | cons x xs ih =>
    exact refines_bind (hf x (by simp)) fun b => refines_ite (fun _ => refines_pure _) fun _ =>
      ih fun a ha => hf a (by simp [ha])

theorem on_all {α : Type} {f : α → M Bool} {g : α → Result Bool} (xs : List α)
    (hf : ∀ a ∈ xs, Refines (f a) (g a)) : Refines (allL f xs) (allM' g xs) := by
  induction xs with
  | nil => exact refines_pure _
  | cons x xs ih =>
    exact refines_bind (hf x (by simp)) fun b => refines_ite (fun _ => ih fun a ha => hf a (by simp [ha])) fun _ =>
      refines_pure _

theorem on_in (h : L.On A) (l : Value) {lt : DataType} (hl : A lt) (rs : List Typed) (hr : ∀ x ∈ rs, A x.2) :
    Refines (evalInL L l lt rs) (evalIn l lt rs) := on_any rs fun x hx => on_eq h _ _ hl _ (hr x hx)

theorem on_logicalIn (h : L.On A) (l : Value) {lt : DataType} (hl : A lt) (rs : List Typed) (hr : ∀ x ∈ rs, A x.2) :
    Refines (logicalInL L l lt rs) (logicalIn l lt rs) := by
  unfold logicalInL logicalIn
  refine refines_bind_ok (on_needOperator h _) ?_
  refine refines_bind (on_isValid h hl _) fun b => ?_
  refine refines_check ?_
  exact refines_bind_ok (on_needOperator h _) (on_in h _ hl _ hr)

theorem on_validList (h : L.On A) {t : DataType} (ht : A t) (v : Value) :
    Refines (isValidListL L t v) (isValidList t v) := by
  rw [isValidListL, isValidList]
  cases listElems? v with
  | none => exact refines_pure _
  | some xs => exact on_all xs fun _ _ => on_isValid h ht _

theorem on_array (h : L.On A) (op : ArrOp) (l : Value) {lt : DataType} (hl : A lt) (rs : List Typed)
    (hr : ∀ x ∈ rs, A x.2) : Refines (evalArrayL L op l lt rs) (evalArray op l lt rs) := by
  refine refines_bind (on_validList h hl _) fun b => ?_
  refine refines_ite (fun _ => refines_pure _) fun _ => ?_
  have hm : ∀ (xs : List Value), ∀ x ∈ xs.map (fun x => (x, lt)), A x.2 := by
    intro xs x hx
    obtain ⟨y, _, rfl⟩ := List.mem_map.mp hx
    exact hl
  cases l with
  | list xs =>
    cases op
    · exact on_all rs fun x hx => on_in h _ (hr x hx) _ (hm xs)
    · exact on_any rs fun x hx => on_in h _ (hr x hx) _ (hm xs)
  | _ => exact refines_lift _

theorem on_logicalArray (h : L.On A) (op : ArrOp) (l : Value) {lt : DataType} (hl : A lt) (rs : List Typed)
    (hr : ∀ x ∈ rs, A x.2) : Refines (logicalArrayL L op l lt rs) (logicalArray op l lt rs) := by
  unfold logicalArrayL logicalArray
  refine refines_bind_ok (on_needOperator h _) ?_
  refine refines_bind (on_validList h hl _) fun b => ?_
  refine refines_check ?_
  exact refines_bind_ok (on_needOperator h _) (on_array h _ _ hl _ hr)

theorem on_fetch (h : L.On A) (o : Option DataType) (ho : ∀ t, o = some t → A t) : Refines (fetch L o) (.ok ()) := by
  cases o with
  | none => exact refines_pure _
  | some t => exact on_castObj h (ho t rfl)

theorem on_rightValid (h : L.On A) {rt : DataType} (hr : A rt) (r : Value) :
    Refines (rightValidL L rt r) (rightValid rt r) := by
  cases r
  case null => exact refines_pure _
  all_goals exact on_isValid h hr _

theorem on_arithBinary (h : L.On A) (env : Env) (op : ArithOp) (l : Value) {lt : DataType} (hl : A lt) (r : Value)
    {rt : DataType} (hr : A rt) (hf : ∀ t, op.fetches lt rt = some t → A t) :
    Refines (arithBinaryL L env op l lt r rt) (arithBinary env op l lt r rt) := by
  unfold arithBinaryL arithBinary
  refine refines_bind_ok (on_needOperator h _) ?_
  refine refines_check ?_
  refine refines_bind (on_isValid h hl _) fun b => ?_
  refine refines_check ?_
  refine refines_check ?_
  refine refines_bind (on_rightValid h hr r) fun b => ?_
  refine refines_check ?_
  refine refines_bind_ok (on_needOperator h _) ?_
  exact refines_bind_ok (on_fetch h _ hf) (refines_lift _)

theorem on_arithNegate (h : L.On A) (v : Value) {t : DataType} (ht : A t) :
    Refines (arithNegateL L v t) (arithNegate v t) := by
  unfold arithNegateL arithNegate
  refine refines_bind_ok (on_needOperator h _) ?_
  refine refines_check ?_
  refine refines_bind (on_isValid h ht _) fun b => ?_
  refine refines_check ?_
  exact refines_bind_ok (on_needOperator h _) (refines_lift _)

theorem on_validateItems (h : L.On A) (items : List Typed) (hi : ∀ x ∈ items, A x.2) :
    Refines (validateItemsL L items) (validateItems items) := by
  induction items with
  | nil => exact refines_pure _
  | cons x xs ih =>
    exact refines_bind (on_isValid h (hi x (by simp)) _) fun b => refines_check (ih fun a ha => hi a (by simp [ha]))

theorem on_int (h : L.On A) (items : List Typed) (hi : ∀ x ∈ items, A x.2) : Refines (intFnL L items) (intFn items) := by
  cases items with
  | nil => exact refines_lift _
  | cons x xs =>
    obtain ⟨v, t⟩ := x
    refine refines_ite (fun hd => ?_) fun _ => refines_ite (fun _ => ?_) fun _ => refines_pure _
    · have hA : A .decimal := by
        have := hi (v, t) (by simp)
        have e : t = .decimal := by simpa using hd
        rw [← e]; exact this
      refine refines_bind_ok (on_typeObj h hA) ?_
      refine refines_bind ?_ fun _ => refines_pure _
      show Refines (lift (getOpt (builtinValue .decimal v >>= castDec))) (getOpt (asDec v))
      rw [dec_value]
      exact refines_lift _
    · cases v
      case long => exact refines_pure _
      all_goals exact refines_lift _

theorem on_evalFn (h : L.On A) (env : Env) (f : FuncType) (items : List Typed) (hi : ∀ x ∈ items, A x.2)
    (hf : ∀ t, f.fetches items = some t → A t) : Refines (evalFnL L env f items) (evalFn env f items) := by
  have fetched : ∀ g : FuncType, (∀ t, g.fetches items = some t → A t) →
      Refines (fetch L (g.fetches items) >>= fun _ => lift (evalFn env g items)) (evalFn env g items) :=
    fun g hg => refines_bind_ok (on_fetch h _ hg) (refines_lift _)
  cases f
  case int => exact on_int h items hi
  case mean =>
    exact refines_bind_ok (show Refines (needFunction L .avg) (.ok (some .builtin)) from reads fun k => h.function k _)
      (fetched .mean hf)
  all_goals exact fetched _ hf

theorem on_callFn (h : L.On A) (env : Env) (f : FuncType) (items : List Typed) (hi : ∀ x ∈ items, A x.2)
    (hf : ∀ t, f.fetches items = some t → A t) : Refines (callFnL L env f items) (callFn env f items) := by
  unfold callFnL callFn
  refine refines_bind_ok (reads fun k => h.function k _) ?_
  refine refines_check ?_
  refine refines_check ?_
  refine refines_check ?_
  exact refines_bind (on_validateItems h items hi) fun _ => on_evalFn h env f items hi hf

end BoolParser
