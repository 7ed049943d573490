import Verif.Model.Lookup
import Verif.Model.Session
/-!
# Reading through complete registries changes nothing
-/

namespace BoolParser

/-- Whenever it starts, `m` ends like `r`. -/
def Refines {α : Type} (m : M α) (r : Result α) : Prop := ∀ k, outcomeAt m k = r

theorem refines_pure {α : Type} (a : α) : Refines (pure a : M α) (.ok a) := fun _ => rfl

theorem refines_lift {α : Type} (r : Result α) : Refines (lift r) r := by
  intro k; cases r <;> rfl

theorem refines_bind {α β : Type} {m : M α} {r : Result α} {f : α → M β} {g : α → Result β} (h : Refines m r)
    (hf : ∀ a, Refines (f a) (g a)) : Refines (m >>= f) (r >>= g) := by
  intro k
  have hk := h k
  show Except.map Prod.fst ((m k) >>= fun p => f p.1 p.2) = r >>= g
  rw [outcomeAt] at hk
  cases hm : m k with
  | error e => rw [hm] at hk; rw [← hk]; rfl
  | ok p => rw [hm] at hk; rw [← hk]; exact hf p.1 p.2

theorem refines_bind_ok {α β : Type} {m : M α} {a : α} {f : α → M β} {g : Result β} (h : Refines m (.ok a))
    (hf : Refines (f a) g) : Refines (m >>= f) g := by
  intro k
  have hk := h k
  show Except.map Prod.fst ((m k) >>= fun p => f p.1 p.2) = g
  rw [outcomeAt] at hk
  cases hm : m k with
  | error e => rw [hm] at hk; cases hk
  | ok p => rw [hm] at hk; cases hk; exact hf p.2

/-- Every read sees the library's own objects. -/
def Live.Complete (L : Live) : Prop := ∀ k, (L.hist k).complete

variable {L : Live}

theorem refines_read (h : L.Complete) (s : Slot) : Refines (readSlot L s) (.ok (some .builtin)) := by
  intro k
  show Except.map Prod.fst (Except.ok (L.hist k s, k + 1)) = _
  rw [h k s]; rfl

theorem refines_typeObj (h : L.Complete) (t : DataType) : Refines (typeObj L t) (.ok (builtinObj t)) :=
  refines_bind_ok (refines_read h _) (refines_pure _)

theorem refines_castObj (h : L.Complete) (t : DataType) : Refines (castObj L t) (.ok ()) :=
  refines_bind_ok (refines_read h _) (refines_pure _)

theorem refines_needOperator (h : L.Complete) (o : Operator) : Refines (needOperator L o) (.ok ()) :=
  refines_bind_ok (refines_read h _) (refines_pure _)

theorem refines_isValid (h : L.Complete) (t : DataType) (v : Value) : Refines (isValidL L t v) (isValid t v) :=
  refines_bind_ok (refines_typeObj h t) (refines_lift _)

theorem refines_check {α : Type} {b : Bool} {e : Exn} {f : Unit → M α} {g : Unit → Result α}
    (h : Refines (f ()) (g ())) :
    Refines (if b then (lift (.error e) >>= f) else f ()) (if b then ((throw e : Result Unit) >>= g) else g ()) := by
  cases b
  · exact h
  · exact fun k => rfl

theorem refines_ite {α : Type} {c : Prop} [Decidable c] {m m' : M α} {r r' : Result α} (h : c → Refines m r)
    (h' : ¬ c → Refines m' r') : Refines (if c then m else m') (if c then r else r') := by
  by_cases hc : c
  · rw [if_pos hc, if_pos hc]; exact h hc
  · rw [if_neg hc, if_neg hc]; exact h' hc

theorem value_need {α : Type} (f : Value → Result (Option α)) (c : α → Comp) (v : Value) :
    need (do let o ← f v; pure (o.map c)) = (need (f v)).map c := by
  cases f v with
  | error e => rfl
  | ok o => cases o <;> rfl

theorem need_both {α : Type} (f : Value → Result (Option α)) (c : α → Comp) (o : α → α → Ordering) (a b : Value)
    (hc : ∀ x y, compareTo L (c x) (c y) = .ok (o x y)) :
    (do
      let x ← need (do let o ← f a; pure (o.map c))
      let y ← need (do let o ← f b; pure (o.map c))
      compareTo L x y) = both f o a b := by
  rw [value_need, value_need, both]
  cases need (f a) with
  | error e => rfl
  | ok x =>
    cases need (f b) with
    | error e => rfl
    | ok y => exact hc x y

theorem builtin_compare (t : DataType) (a b : Value) :
    (do
      let x ← need (builtinValue t a)
      let y ← need (builtinValue t b)
      compareTo L x y) = comparePrim t a b := by
  cases t
  · exact need_both asString .str cmpStr a b (fun _ _ => rfl)
  · exact need_both asInt .int compare a b (fun _ _ => rfl)
  · exact need_both asLong .long compare a b (fun _ _ => rfl)
  · exact need_both asDec .dec Dec.cmp a b (fun _ _ => rfl)
  · exact need_both asVer .ver cmpVersion a b (fun _ _ => rfl)
  · exact need_both asBool .bool compare a b (fun _ _ => rfl)
  · exact need_both asDate .date cmpDate a b (fun _ _ => rfl)
  · exact need_both asDateTime .datetime cmpDateTime a b (fun _ _ => rfl)

theorem refines_compare (h : L.Complete) (t : DataType) (a b : Value) :
    Refines (comparePrimL L t a b) (comparePrim t a b) := by
  rw [← builtin_compare (L := L)]
  have hv : ∀ v, Refines (getValueL L t v) (need (builtinValue t v)) := fun v =>
    refines_bind_ok (refines_typeObj h t) (refines_lift _)
  exact refines_bind (hv a) fun x => refines_bind (hv b) fun y => refines_lift _

theorem refines_eq (h : L.Complete) (op : CmpOp) (l : Value) (lt : DataType) (r : Value) (rt : DataType) :
    Refines (evalEqL L op l lt r rt) (evalEq op l lt r rt) :=
  refines_bind (refines_compare h _ _ _) fun _ => refines_pure _

theorem refines_validate (h : L.Complete) (l : Value) (lt : DataType) (r : Value) (rt : DataType) :
    Refines (validateL L l lt r rt) (validate l lt r rt) := by
  rw [validateL, validate]
  refine refines_ite (fun _ => refines_pure ()) fun _ => ?_
  have hs : ∀ (t : DataType) (v : Value), Refines (isValidL L t v >>= fun b => if !b then lift (.error .invalidDataType) else pure ())
      (isValid t v >>= fun b => if !b then throw .invalidDataType else pure ()) := fun t v =>
    refines_bind (refines_isValid h t v) fun b => refines_ite (fun _ => refines_lift _) (fun _ => refines_pure ())
  cases lt.numeric <;> cases rt.numeric
  · exact refines_bind (refines_isValid h _ _) fun _ => refines_check (hs lt r)
  · exact refines_bind (refines_isValid h _ _) fun _ => refines_check (refines_pure ())
  · exact hs lt r
  · exact refines_pure ()

theorem refines_ord (h : L.Complete) (op : CmpOp) (l : Value) (lt : DataType) (r : Value) (rt : DataType) :
    Refines (evalOrdL L op l lt r rt) (evalOrd op l lt r rt) :=
  refines_bind (refines_validate h _ _ _ _) fun _ => refines_bind (refines_compare h _ _ _) fun _ => refines_pure _

theorem refines_cmpOp (h : L.Complete) (op : CmpOp) (l : Value) (lt : DataType) (r : Value) (rt : DataType) :
    Refines (evalCmpOpL L op l lt r rt) (evalCmpOp op l lt r rt) := by
  cases op
  · exact refines_eq h _ _ _ _ _
  · exact refines_eq h _ _ _ _ _
  · exact refines_ord h _ _ _ _ _
  · exact refines_ord h _ _ _ _ _
  · exact refines_ord h _ _ _ _ _
  · exact refines_ord h _ _ _ _ _

theorem refines_logicalCmp (h : L.Complete) (op : CmpOp) (l : Value) (lt : DataType) (r : Value) (rt : DataType) :
    Refines (logicalCmpL L op l lt r rt) (logicalCmp op l lt r rt) := by
  unfold logicalCmpL logicalCmp
  refine refines_bind_ok (refines_needOperator h _) ?_
  refine refines_check ?_
  refine refines_bind (refines_isValid h _ _) fun b => ?_
  refine refines_check ?_
  refine refines_check ?_
  exact refines_bind_ok (refines_needOperator h _) (refines_cmpOp h _ _ _ _ _)

theorem refines_any {α : Type} {f : α → M Bool} {g : α → Result Bool} (hf : ∀ a, Refines (f a) (g a)) (xs : List α) :
    Refines (anyL f xs) (anyM' g xs) := by
  induction xs with
  | nil => exact refines_pure _
  | cons x xs ih => exact refines_bind (hf x) fun b => refines_ite (fun _ => refines_pure _) fun _ => ih

theorem refines_all {α : Type} {f : α → M Bool} {g : α → Result Bool} (hf : ∀ a, Refines (f a) (g a)) (xs : List α) :
    Refines (allL f xs) (allM' g xs) := by
  induction xs with
  | nil => exact refines_pure _
  | cons x xs ih => exact refines_bind (hf x) fun b => refines_ite (fun _ => ih) fun _ => refines_pure _

theorem refines_in (h : L.Complete) (l : Value) (lt : DataType) (rs : List Typed) :
    Refines (evalInL L l lt rs) (evalIn l lt rs) := refines_any (fun _ => refines_eq h _ _ _ _ _) rs

theorem refines_logicalIn (h : L.Complete) (l : Value) (lt : DataType) (rs : List Typed) :
    Refines (logicalInL L l lt rs) (logicalIn l lt rs) := by
  unfold logicalInL logicalIn
  refine refines_bind_ok (refines_needOperator h _) ?_
  refine refines_bind (refines_isValid h _ _) fun b => ?_
  refine refines_check ?_
  exact refines_bind_ok (refines_needOperator h _) (refines_in h _ _ _)

theorem refines_validList (h : L.Complete) (t : DataType) (v : Value) :
    Refines (isValidListL L t v) (isValidList t v) := by
  rw [isValidListL, isValidList]
  cases listElems? v with
  | none => exact refines_pure _
  | some xs => exact refines_all (fun _ => refines_isValid h _ _) xs

theorem refines_array (h : L.Complete) (op : ArrOp) (l : Value) (lt : DataType) (rs : List Typed) :
    Refines (evalArrayL L op l lt rs) (evalArray op l lt rs) := by
  refine refines_bind (refines_validList h _ _) fun b => ?_
  refine refines_ite (fun _ => refines_pure _) fun _ => ?_
  cases l with
  | list xs =>
    cases op
    · exact refines_all (fun _ => refines_in h _ _ _) rs
    · exact refines_any (fun _ => refines_in h _ _ _) rs
  | _ => exact refines_lift _

theorem refines_logicalArray (h : L.Complete) (op : ArrOp) (l : Value) (lt : DataType) (rs : List Typed) :
    Refines (logicalArrayL L op l lt rs) (logicalArray op l lt rs) := by
  unfold logicalArrayL logicalArray
  refine refines_bind_ok (refines_needOperator h _) ?_
  refine refines_bind (refines_validList h _ _) fun b => ?_
  refine refines_check ?_
  exact refines_bind_ok (refines_needOperator h _) (refines_array h _ _ _ _)

theorem refines_fetch (h : L.Complete) (o : Option DataType) : Refines (fetch L o) (.ok ()) := by
  cases o with
  | none => exact refines_pure _
  | some t => exact refines_castObj h t

theorem refines_arithBinary (h : L.Complete) (env : Env) (op : ArithOp) (l : Value) (lt : DataType) (r : Value)
    (rt : DataType) : Refines (arithBinaryL L env op l lt r rt) (arithBinary env op l lt r rt) := by
  unfold arithBinaryL arithBinary
  refine refines_bind_ok (refines_needOperator h _) ?_
  refine refines_check ?_
  refine refines_bind (refines_isValid h _ _) fun b => ?_
  refine refines_check ?_
  refine refines_check ?_
  have hr : Refines (rightValidL L rt r) (rightValid rt r) := by
    cases r
    case null => exact refines_pure _
    all_goals exact refines_isValid h _ _
  refine refines_bind hr fun b => ?_
  refine refines_check ?_
  refine refines_bind_ok (refines_needOperator h _) ?_
  exact refines_bind_ok (refines_fetch h _) (refines_lift _)

theorem refines_arithNegate (h : L.Complete) (v : Value) (t : DataType) :
    Refines (arithNegateL L v t) (arithNegate v t) := by
  unfold arithNegateL arithNegate
  refine refines_bind_ok (refines_needOperator h _) ?_
  refine refines_check ?_
  refine refines_bind (refines_isValid h _ _) fun b => ?_
  refine refines_check ?_
  exact refines_bind_ok (refines_needOperator h _) (refines_lift _)

theorem refines_validateItems (h : L.Complete) (items : List Typed) :
    Refines (validateItemsL L items) (validateItems items) := by
  induction items with
  | nil => exact refines_pure _
  | cons x xs ih => exact refines_bind (refines_isValid h _ _) fun b => refines_check ih

theorem dec_value (v : Value) : (builtinValue .decimal v >>= castDec) = asDec v := by
  show ((do let o ← asDec v; pure (o.map Comp.dec)) >>= castDec) = asDec v
  cases asDec v with
  | error e => rfl
  | ok o => cases o <;> rfl

theorem refines_int (h : L.Complete) (items : List Typed) : Refines (intFnL L items) (intFn items) := by
  cases items with
  | nil => exact refines_lift _
  | cons x xs =>
    obtain ⟨v, t⟩ := x
    refine refines_ite (fun _ => ?_) fun _ => refines_ite (fun _ => ?_) fun _ => refines_pure _
    · refine refines_bind_ok (refines_typeObj h _) ?_
      refine refines_bind ?_ fun _ => refines_pure _
      show Refines (lift (getOpt (builtinValue .decimal v >>= castDec))) (getOpt (asDec v))
      rw [dec_value]
      exact refines_lift _
    · cases v
      case long => exact refines_pure _
      all_goals exact refines_lift _

theorem refines_evalFn (h : L.Complete) (env : Env) (f : FuncType) (items : List Typed) :
    Refines (evalFnL L env f items) (evalFn env f items) := by
  have fetched : ∀ f : FuncType, Refines (fetch L (f.fetches items) >>= fun _ => lift (evalFn env f items)) (evalFn env f items) :=
    fun f => refines_bind_ok (refines_fetch h _) (refines_lift _)
  cases f
  case int => exact refines_int h items
  case mean =>
    exact refines_bind_ok (show Refines (needFunction L .avg) (.ok (some .builtin)) from refines_read h _) (fetched .mean)
  all_goals exact fetched _

theorem refines_callFn (h : L.Complete) (env : Env) (f : FuncType) (items : List Typed) :
    Refines (callFnL L env f items) (callFn env f items) := by
  unfold callFnL callFn
  refine refines_bind_ok (refines_read h _) ?_
  refine refines_check ?_
  refine refines_check ?_
  refine refines_check ?_
  exact refines_bind (refines_validateItems h items) fun _ => refines_evalFn h env f items

mutual
theorem refines_arith (h : L.Complete) (env : Env) (d : Data) (n : Node) :
    Refines (evalArithL L env d n) (evalArith env d n) := by
  cases n with
  | arith op l r =>
    rw [evalArithL, evalArith]
    exact refines_bind (refines_arith h env d l) fun a => refines_bind (refines_arith h env d r) fun b =>
      refines_arithBinary h env op a _ b _
  | neg l =>
    rw [evalArithL, evalArith]
    exact refines_bind (refines_arith h env d l) fun a => refines_arithNegate h a _
  | func f items =>
    rw [evalArithL, evalArith]
    exact refines_bind (refines_arithAll h env d items) fun vs => refines_callFn h env f _
  | unary t v => simp only [evalArithL, evalArith]; exact refines_pure _
  | field f => simp only [evalArithL, evalArith]; exact refines_lift _
  | _ => simp only [evalArithL, evalArith]; exact refines_lift _
theorem refines_arithAll (h : L.Complete) (env : Env) (d : Data) (ns : List Node) :
    Refines (evalArithAllL L env d ns) (evalArithAll env d ns) := by
  cases ns with
  | nil => simp only [evalArithAllL, evalArithAll]; exact refines_pure _
  | cons n ns =>
    rw [evalArithAllL, evalArithAll]
    exact refines_bind (refines_arith h env d n) fun v => refines_bind (refines_arithAll h env d ns) fun vs => refines_pure _
end

theorem refines_operand (h : L.Complete) (env : Env) (d : Data) (n : Node) {b : M Bool} {r : Result Bool}
    (hb : Refines b r) : Refines (operandValueL L env d n b) (operandValue env d n r) := by
  cases n
  case field => exact refines_lift _
  case unary => exact refines_lift _
  case arith => exact refines_bind (refines_arith h env d _) fun v => refines_lift _
  case neg => exact refines_bind (refines_arith h env d _) fun v => refines_lift _
  case func => exact refines_bind (refines_arith h env d _) fun v => refines_lift _
  all_goals exact refines_bind hb fun x => refines_pure _

theorem refines_comparison (h : L.Complete) (op : CmpOp) (l r : Node) {lv rv : M (Option Value)}
    {lv' rv' : Result (Option Value)} (hl : Refines lv lv') (hr : Refines rv rv') :
    Refines (evalComparisonL L op l r lv rv) (evalComparison op l r lv' rv') := by
  refine refines_bind hl fun lo => ?_
  refine refines_bind (refines_lift _) fun nc => ?_
  refine refines_bind (refines_ite (fun _ => refines_pure _) fun _ => ?_) fun a => ?_
  · cases lo with
    | none => exact refines_lift _
    | some v => exact refines_pure _
  refine refines_bind (refines_ite (fun _ => refines_pure _) fun _ => ?_) fun b => refines_logicalCmp h _ _ _ _ _
  refine refines_bind hr fun ro => ?_
  cases ro with
  | none => exact refines_lift _
  | some v => exact refines_pure _

theorem refines_range (h : L.Complete) (d : Data) (f : JStr) (lo hi : Value) (loT hiT : DataType) :
    Refines (evalRangeL L d f lo hi loT hiT) (evalRange d f lo hi loT hiT) :=
  refines_bind (refines_lift _) fun _ => refines_bind (refines_logicalCmp h _ _ _ _ _) fun _ =>
    refines_bind (refines_logicalCmp h _ _ _ _ _) fun _ => refines_pure _

theorem refines_item (h : L.Complete) (env : Env) (d : Data) (n : Node) {b : M Bool} {r : Result Bool}
    (hb : Refines b r) : Refines (itemValueL L env d n b) (itemValue env d n r) :=
  refines_ite (fun _ => refines_arith h env d n) fun _ => refines_bind hb fun _ => refines_pure _

mutual
theorem refines_bool (h : L.Complete) (env : Env) (d : Data) (n : Node) :
    Refines (evalBoolL L env d n) (evalBool env d n) := by
  cases n with
  | cmp l r op t =>
    rw [evalBoolL, evalBool]
    exact refines_comparison h op l r (refines_operand h env d l (refines_bool h env d l))
      (refines_operand h env d r (refines_bool h env d r))
  | range f lo hi loT hiT => simp only [evalBoolL, evalBool]; exact refines_range h d f lo hi loT hiT
  | inn f items =>
    rw [evalBoolL, evalBool]
    exact refines_bind (refines_lift _) fun v => refines_bind (refines_items h env d items) fun vs =>
      refines_logicalIn h _ _ _
  | array f op items =>
    rw [evalBoolL, evalBool]
    exact refines_bind (refines_lift _) fun v => refines_bind (refines_items h env d items) fun vs =>
      refines_check (refines_logicalArray h _ _ _ _)
  | unary t v => simp only [evalBoolL, evalBool]; exact refines_lift _
  | and_ l r =>
    rw [evalBoolL, evalBool]
    exact refines_bind (refines_bool h env d l) fun a =>
      refines_ite (fun _ => refines_bool h env d r) fun _ => refines_pure _
  | or_ l r =>
    rw [evalBoolL, evalBool]
    exact refines_bind (refines_bool h env d l) fun a =>
      refines_ite (fun _ => refines_pure _) fun _ => refines_bool h env d r
  | not_ l =>
    rw [evalBoolL, evalBool]
    exact refines_bind (refines_bool h env d l) fun a => refines_pure _
  | _ => simp only [evalBoolL, evalBool]; exact refines_pure _
theorem refines_items (h : L.Complete) (env : Env) (d : Data) (ns : List Node) :
    Refines (evalItemsL L env d ns) (evalItems env d ns) := by
  cases ns with
  | nil => simp only [evalItemsL, evalItems]; exact refines_pure _
  | cons n ns =>
    rw [evalItemsL, evalItems]
    exact refines_bind (refines_item h env d n (refines_bool h env d n)) fun v =>
      refines_bind (refines_items h env d ns) fun vs => refines_pure _
end

end BoolParser
