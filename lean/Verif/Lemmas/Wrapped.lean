import Verif.Lemmas.Agree
import Verif.Spec.Wrapped
import Verif.Lemmas.CondNode
import Verif.Lemmas.Local
import Verif.Util.KRfl
/-!
# Data with `EvaluatedNode` objects
-/

namespace BoolParser
open Spec

theorem held_none {W : Wraps} (hW : ∀ t, W t = none) (v : Value) : W.held v = none := by
  cases v <;> first | rfl | exact hW _

theorem typed_plain {W : Wraps} {v : Value} (h : W.held v = none) : W.typed v = (v, getDataType v) := by
  rw [Wraps.typed, h]

theorem spread_type (v : Value) : spread v (getDataType v) = match v with
     | .list xs => xs.map (fun x => (x, getDataType x))
     | .coll xs => xs.map (fun x => (x, getDataType x))
     | w => [(w, getDataType w)] := by
  cases v <;> rfl

theorem flatten_cons (v : Value) (vs : List Value) : flattenItems (v :: vs) = spread v (getDataType v) ++ flattenItems vs := by
  cases v <;> first | rfl | (simp only [flattenItems]; rfl)

theorem flattenW_plain {W : Wraps} : (vs : List Value) → (∀ v ∈ vs, W.held v = none) → flattenItemsW W vs = flattenItems vs
  | [], _ => rfl
  | v :: vs, h => by
    rw [flattenItemsW, h v (by simp), flatten_cons, flattenW_plain vs (fun w hw => h w (by simp [hw]))]
    rfl

/-! ### Without such objects nothing changes -/

mutual
theorem arithW_plain {W : Wraps} (hW : ∀ t, W t = none) (env : Env) (d : Data) : (n : Node) →
    evalArithW W env d n = evalArith env d n
  | .arith op l r => by
    rw [evalArithW, evalArith, arithW_plain hW env d l, arithW_plain hW env d r]
    cases evalArith env d l with
    | error e => rfl
    | ok a =>
      cases evalArith env d r with
      | error e => rfl
      | ok b => simp only [ok_bind, typed_plain (held_none hW a), typed_plain (held_none hW b)]
  | .neg l => by
    rw [evalArithW, evalArith, arithW_plain hW env d l]
    cases evalArith env d l with
    | error e => rfl
    | ok a => simp only [ok_bind, typed_plain (held_none hW a)]
  | .func f items => by
    rw [evalArithW, evalArith, arithAllW_plain hW env d items]
    cases evalArithAll env d items with
    | error e => rfl
    | ok vs => simp only [ok_bind, flattenW_plain vs (fun v _ => held_none hW v)]
  | .unary _ _ => by rw [evalArithW, evalArith]
  | .field _ => by rw [evalArithW, evalArith]
  | .cmp _ _ _ _ => by simp only [evalArithW, evalArith]
  | .range _ _ _ _ _ => by simp only [evalArithW, evalArith]
  | .inn _ _ => by simp only [evalArithW, evalArith]
  | .array _ _ _ => by simp only [evalArithW, evalArith]
  | .and_ _ _ => by simp only [evalArithW, evalArith]
  | .or_ _ _ => by simp only [evalArithW, evalArith]
  | .not_ _ => by simp only [evalArithW, evalArith]
theorem arithAllW_plain {W : Wraps} (hW : ∀ t, W t = none) (env : Env) (d : Data) : (ns : List Node) →
    evalArithAllW W env d ns = evalArithAll env d ns
  | [] => by rw [evalArithAllW, evalArithAll]
  | n :: ns => by rw [evalArithAllW, evalArithAll, arithW_plain hW env d n, arithAllW_plain hW env d ns]
end

theorem operandW_plain {W : Wraps} (hW : ∀ t, W t = none) (env : Env) (d : Data) (n : Node) (b : Result Bool) :
    operandValueW W env d n b = operandValue env d n b := by
  cases n <;> simp only [operandValueW, operandValue, arithW_plain hW]

theorem itemW_plain {W : Wraps} (hW : ∀ t, W t = none) (env : Env) (d : Data) (n : Node) (b : Result Bool) :
    itemValueW W env d n b = itemValue env d n b := by
  rw [itemValueW, itemValue, arithW_plain hW]

mutual
theorem boolW_plain {W : Wraps} (hW : ∀ t, W t = none) (env : Env) (d : Data) : (n : Node) →
    evalBoolW W env d n = evalBool env d n
  | .cmp l r op dt => by
    rw [evalBoolW, evalBool, operandW_plain hW, operandW_plain hW, boolW_plain hW env d l, boolW_plain hW env d r]
  | .range _ _ _ _ _ => by rw [evalBoolW, evalBool]
  | .inn f items => by
    rw [evalBoolW, evalBool, itemsW_plain hW env d items]
    simp only [flattenW_plain _ (fun v _ => held_none hW v)]
  | .array f op items => by
    rw [evalBoolW, evalBool, itemsW_plain hW env d items]
    simp only [flattenW_plain _ (fun v _ => held_none hW v)]
  | .unary _ _ => by rw [evalBoolW, evalBool]
  | .and_ l r => by rw [evalBoolW, evalBool, boolW_plain hW env d l, boolW_plain hW env d r]
  | .or_ l r => by rw [evalBoolW, evalBool, boolW_plain hW env d l, boolW_plain hW env d r]
  | .not_ l => by rw [evalBoolW, evalBool, boolW_plain hW env d l]
  | .field _ => by rw [evalBoolW, evalBool]
  | .arith _ _ _ => by rw [evalBoolW, evalBool]
  | .neg _ => by rw [evalBoolW, evalBool]
  | .func _ _ => by rw [evalBoolW, evalBool]
theorem itemsW_plain {W : Wraps} (hW : ∀ t, W t = none) (env : Env) (d : Data) : (ns : List Node) →
    evalItemsW W env d ns = evalItems env d ns
  | [] => by rw [evalItemsW, evalItems]
  | n :: ns => by rw [evalItemsW, evalItems, itemW_plain hW, boolW_plain hW env d n, itemsW_plain hW env d ns]
end

/-! ### Operators look into them -/

/-- Not one of the opaque objects. -/
def Value.known : Value → Bool
  | .other _ => false
  | _ => true

theorem known_held {W : Wraps} {v : Value} (h : v.known = true) : W.held v = none := by
  cases v <;> first | rfl | cases h

theorem known_content {W : Wraps} {v : Value} (h : v.known = true) : content W v = v := by
  rw [content, known_held h]

theorem castLong_known (n : Int) : (castLong n).known = true := by
  rw [castLong]; split <;> rfl

theorem castDecimal_known {d : Dec} {v : Value} (h : castDecimal d = .ok v) : v.known = true := by
  rw [castDecimal] at h
  split at h
  · obtain ⟨n, _, h⟩ := bind_ok_inv h
    cases h; rfl
  · cases h; rfl

theorem castDouble_known {x : Dbl} {v : Value} (h : castDouble x = .ok v) : v.known = true := by
  cases x with
  | nan => cases h
  | inf _ => cases h
  | fin m e =>
    rw [castDouble] at h
    injection h with h
    rw [← h]
    split <;> rfl

theorem evalArithOp_known {env : Env} {o : ArithOp} {l r : Value} {lt rt : DataType} {v : Value}
    (h : evalArithOp env o l lt r rt = .ok v) : v.known = true := by
  cases o <;> rw [evalArithOp] at h
  · split at h
    · cases h; rfl
    split at h <;> obtain ⟨a, _, h⟩ := bind_ok_inv h <;> obtain ⟨b, _, h⟩ := bind_ok_inv h <;> injection h with h <;> rw [← h]
    · rfl
    · exact castLong_known _
  · split at h
    · obtain ⟨a, _, h⟩ := bind_ok_inv h; obtain ⟨b, _, h⟩ := bind_ok_inv h; cases h; rfl
    split at h <;> obtain ⟨a, _, h⟩ := bind_ok_inv h <;> obtain ⟨b, _, h⟩ := bind_ok_inv h <;> cases h <;> rfl
  · split at h <;> obtain ⟨a, _, h⟩ := bind_ok_inv h <;> obtain ⟨b, _, h⟩ := bind_ok_inv h <;> injection h with h <;> rw [← h]
    · rfl
    · exact castLong_known _
  · obtain ⟨a, _, h⟩ := bind_ok_inv h
    obtain ⟨b, _, h⟩ := bind_ok_inv h
    obtain ⟨q, _, h⟩ := bind_ok_inv h
    exact castDecimal_known h
  · split at h <;> obtain ⟨a, _, h⟩ := bind_ok_inv h <;> obtain ⟨b, _, h⟩ := bind_ok_inv h <;> split at h <;>
      first | cases h; rfl | cases h
  · split at h <;> obtain ⟨a, _, h⟩ := bind_ok_inv h <;> obtain ⟨b, _, h⟩ := bind_ok_inv h <;> exact castDouble_known h

theorem arithBinary_known {env : Env} {o : ArithOp} {l r : Value} {lt rt : DataType} {v : Value}
    (h : arithBinary env o l lt r rt = .ok v) : v.known = true := by
  rw [arithBinary] at h
  split at h
  · cases h
  obtain ⟨_, _, h⟩ := bind_ok_inv h
  dsimp only at h
  split at h
  · cases h
  split at h
  · cases h
  obtain ⟨_, _, h⟩ := bind_ok_inv h
  split at h
  · cases h
  exact evalArithOp_known h

theorem arithNegate_known {v w : Value} {t : DataType} (h : arithNegate v t = .ok w) : w.known = true := by
  rw [arithNegate] at h
  split at h
  · cases h
  obtain ⟨_, _, h⟩ := bind_ok_inv h
  split at h
  · cases h
  unfold evalNeg at h
  split at h <;> cases h <;> rfl

theorem lit_known (l : Lit) : l.value.known = true := by
  cases l with
  | int ds => rw [Lit.value]; split <;> rfl
  | _ => rfl

/-- The contents of a result. -/
def opened (W : Wraps) : Result Value → Result Value
  | .ok v => .ok (content W v)
  | .error e => .error e

theorem typed_honest {W : Wraps} (hW : Honest W) (v : Value) : W.typed v = (content W v, getDataType (content W v)) := by
  rw [Wraps.typed, content]
  cases h : W.held v with
  | none => rfl
  | some p =>
    obtain ⟨t, x⟩ := p
    have : t = getDataType x := by
      cases v <;> first | cases h; done | exact hW _ _ _ h
    show (x, t) = (x, getDataType x)
    rw [this]

theorem opened_known {W : Wraps} {r : Result Value} (h : ∀ v, r = .ok v → v.known = true) : opened W r = r := by
  cases r with
  | error e => rfl
  | ok v => rw [opened, known_content (h v rfl)]

/-- `Unwrapped`, as lookups. -/
def OpenedW (W : Wraps) (fields : List JStr) (d d' : Data) : Prop :=
  ∀ f ∈ fields, ∀ r, getValueFromMap f d = r → getValueFromMap f d' =
    match r with
    | .ok o => .ok (o.map (content W))
    | .error e => .error e

theorem opened_of {W : Wraps} {fields : List JStr} {d d' : Data} (hn : ∀ f ∈ fields, IsName f)
    (h : Unwrapped W fields d d') : OpenedW W fields d d' := by
  intro f hf r hr
  obtain ⟨ks, hk⟩ := isName_names (hn f hf)
  obtain ⟨h1, h2⟩ := h f hf ks hk
  subst hr
  cases hg : getValueFromMap f d with
  | error e =>
    unfold getValueFromMap at hg; rw [splitKey_names hk] at hg
    obtain ⟨o, ho⟩ := walkKeys_ok hk.1.1 d
    rw [ho] at hg; cases hg
  | ok o =>
    cases o with
    | none => exact (lookup_none hk d').mpr (h2 ((lookup_none hk d).mp hg))
    | some v => exact (lookup_some hk d' _).mpr (h1 v ((lookup_some hk d v).mp hg))

theorem found_lookup {d : Data} {f : JStr} {v : Value} (h : Found d f v) : getValueFromMap f d = .ok (some v) := by
  obtain ⟨ks, hk, hr⟩ := h
  exact (lookup_some hk d v).mpr hr

theorem found_of {d : Data} {f : JStr} {v : Value} (hn : IsName f) (h : getValueFromMap f d = .ok (some v)) : Found d f v := by
  obtain ⟨ks, hk⟩ := isName_names hn
  exact ⟨ks, hk, (lookup_some hk d v).mp h⟩

/-- For examples. -/
theorem unwrapped_one {W : Wraps} {d d' : Data} {f : JStr} {v : Value} (h : getValueFromMap f d = .ok (some v))
    (h' : getValueFromMap f d' = .ok (some (content W v))) : Unwrapped W [f] d d' := by
  intro g hg ks hk
  rw [List.mem_singleton] at hg
  subst hg
  constructor
  · intro w hw
    have := (lookup_some hk d w).mpr hw
    rw [h] at this
    injection this with this
    injection this with this
    rw [← this]
    exact (lookup_some hk d' _).mp h'
  · intro hm
    have := (lookup_none hk d).mpr hm
    rw [h] at this
    injection this with this
    cases this

theorem calculated_fields (e : Arith) : ∀ f ∈ e.calculated, f ∈ e.fields := by
  intro f hf
  rw [Arith.calculated] at hf
  split at hf
  · cases hf
  · exact hf

theorem direct_fields (e : Arith) : ∀ f ∈ e.direct, f ∈ e.fields := by
  intro f hf
  rw [Arith.direct] at hf
  split at hf
  · exact hf
  · cases hf

theorem ccalculated_fields (df : Option JStr) : (c : Cond) → ∀ f ∈ c.calculated, f ∈ c.fields df ∧ (c.Valid → IsName f)
  | .cmp _ l r, f, hf => by
    rcases List.mem_append.mp hf with h | h
    · exact ⟨List.mem_append_left _ (calculated_fields l f h), fun hv => names_of_valid l hv.1 f (calculated_fields l f h)⟩
    · exact ⟨List.mem_append_right _ (calculated_fields r f h), fun hv => names_of_valid r hv.2.1 f (calculated_fields r f h)⟩
  | .cmpD _ r, f, hf => ⟨List.mem_append_right _ (calculated_fields r f hf),
      fun hv => names_of_valid r hv.1 f (calculated_fields r f hf)⟩
  | .not c, f, hf => ccalculated_fields df c f hf
  | .group c, f, hf => ccalculated_fields df c f hf
  | .conn _ l r, f, hf => by
    rcases List.mem_append.mp hf with h | h
    · obtain ⟨h1, h2⟩ := ccalculated_fields df l f h
      exact ⟨List.mem_append_left _ h1, fun hv => h2 hv.1⟩
    · obtain ⟨h1, h2⟩ := ccalculated_fields df r f h
      exact ⟨List.mem_append_right _ h1, fun hv => h2 hv.2⟩
  | .isNull _ _, _, hf => by cases hf
  | .range _ _ _, _, hf => by cases hf
  | .isIn _ _ _, _, hf => by cases hf
  | .contains _ _ _, _, hf => by cases hf
  | .notField _, _, hf => by cases hf

theorem cdirect_fields (df : Option JStr) : (c : Cond) → ∀ f ∈ c.direct df, f ∈ c.fields df
  | .cmp _ l r, f, hf => by
    rcases List.mem_append.mp hf with h | h
    · exact List.mem_append_left _ (direct_fields l f h)
    · exact List.mem_append_right _ (direct_fields r f h)
  | .cmpD _ r, f, hf => by
    rcases List.mem_append.mp hf with h | h
    · exact List.mem_append_left _ h
    · exact List.mem_append_right _ (direct_fields r f h)
  | .not c, f, hf => cdirect_fields df c f hf
  | .group c, f, hf => cdirect_fields df c f hf
  | .conn _ l r, f, hf => by
    rcases List.mem_append.mp hf with h | h
    · exact List.mem_append_left _ (cdirect_fields df l f h)
    · exact List.mem_append_right _ (cdirect_fields df r f h)
  | .isNull _ _, _, hf => hf
  | .range _ _ _, _, hf => hf
  | .isIn _ _ _, _, hf => List.mem_cons.mpr (.inl (List.mem_singleton.mp hf))
  | .contains _ _ _, _, hf => List.mem_cons.mpr (.inl (List.mem_singleton.mp hf))
  | .notField _, _, hf => hf

theorem fieldValue_opened {W : Wraps} {d d' : Data} {f : JStr} (h : OpenedW W [f] d d') :
    Arith.fieldValue f d' = opened W (requireField (some f) d) := by
  have h := h f (by simp) _ rfl
  rw [Arith.fieldValue, requireField, lookupField, h]
  cases getValueFromMap f d with
  | error e => rfl
  | ok o => cases o <;> rfl

theorem value_opened {W : Wraps} (hW : Honest W) (env : Env) {d d' : Data} : (e : Arith) → e.callFree = true →
    OpenedW W e.fields d d' → e.value env d' = opened W (evalArithW W env d e.node)
  | .field f, _, h => by
    rw [Arith.value, Arith.node, evalArithW, fieldValue_opened h]
  | .lit l, _, _ => by
    rw [Arith.value, Arith.node, evalArithW, opened, known_content (lit_known l)]
  | .group e, hc, h => by
    rw [Arith.value, Arith.node]
    exact value_opened hW env e hc h
  | .op o l r, hc, h => by
    rw [Arith.callFree, Bool.and_eq_true] at hc
    rw [Arith.fields] at h
    rw [Arith.value, Arith.node, evalArithW, value_opened hW env l hc.1 (fun f hf => h f (by simp [hf])),
      value_opened hW env r hc.2 (fun f hf => h f (by simp [hf]))]
    cases evalArithW W env d l.node with
    | error e => rfl
    | ok a =>
      cases evalArithW W env d r.node with
      | error e => rfl
      | ok b =>
        simp only [opened, ok_bind, typed_honest hW]
        exact (opened_known (fun v => arithBinary_known)).symm
  | .neg e, hc, h => by
    rw [Arith.value, Arith.node, evalArithW, value_opened hW env e hc h]
    cases evalArithW W env d e.node with
    | error e => rfl
    | ok a =>
      simp only [opened, ok_bind, typed_honest hW]
      exact (opened_known (fun v => arithNegate_known)).symm

/-- The values of operations are numbers and texts. -/
theorem operation_known {W : Wraps} {env : Env} {d : Data} : {e : Arith} → {after : Bool} → e.callFree = true →
    e.readable after = true → e.isAtom = false → ∀ v, evalArithW W env d e.node = .ok v → v.known = true
  | .field _, _, _, _, h, _, _ => by cases h
  | .lit _, _, _, _, h, _, _ => by cases h
  | .group e, after, hc, hr, _, v, h => by
    rw [Arith.readable, Bool.and_eq_true, Bool.not_eq_true'] at hr
    rw [Arith.node] at h
    exact operation_known (e := e) hc hr.2 hr.1 v h
  | .op o l r, _, _, _, _, v, h => by
    rw [Arith.node, evalArithW] at h
    obtain ⟨_, _, h⟩ := bind_ok_inv h
    obtain ⟨_, _, h⟩ := bind_ok_inv h
    exact arithBinary_known h
  | .neg e, _, _, _, _, v, h => by
    rw [Arith.node, evalArithW] at h
    obtain ⟨_, _, h⟩ := bind_ok_inv h
    exact arithNegate_known h

/-! ### Functions and lists count them twice -/

theorem flattenW_counted {W : Wraps} (hW : Honest W) : (vs : List Value) →
    flattenItemsW W vs = flattenItems (vs.flatMap (counted W))
  | [] => rfl
  | v :: vs => by
    rw [flattenItemsW, List.flatMap_cons, flattenW_counted hW vs, counted]
    cases h : W.held v with
    | none => simp only [List.nil_append, List.singleton_append, flatten_cons]
    | some p =>
      obtain ⟨t, x⟩ := p
      have : t = getDataType x := by
        cases v <;> first | cases h; done | exact hW _ _ _ h
      subst this
      simp only [List.cons_append, List.nil_append, flatten_cons, List.append_assoc]

theorem require_have {d : Data} {f : JStr} {v : Value} (h : getValueFromMap f d = .ok (some v)) :
    requireField (some f) d = .ok v := by
  rw [requireField, lookupField, h]; rfl

theorem arithAllW_have {W : Wraps} {env : Env} {d : Data} : (fs : List JStr) → (vs : List Value) → Have d fs vs →
    evalArithAllW W env d (Arith.nodes (fs.map Arith.field)) = .ok vs
  | [], [], _ => by rw [List.map_nil, Arith.nodes, evalArithAllW]
  | f :: fs, v :: vs, h => by
    rw [List.map_cons, Arith.nodes, evalArithAllW, Arith.node, evalArithW, require_have (found_lookup h.1), ok_bind,
      arithAllW_have fs vs h.2]
    rfl
  | [], _ :: _, h => h.elim
  | _ :: _, [], h => h.elim

theorem itemsW_have {W : Wraps} {env : Env} {d : Data} : (fs : List JStr) → (vs : List Value) → Have d fs vs →
    evalItemsW W env d (Arith.nodes (fs.map Arith.field)) = .ok vs
  | [], [], _ => by rw [List.map_nil, Arith.nodes, evalItemsW]
  | f :: fs, v :: vs, h => by
    rw [List.map_cons, Arith.nodes, evalItemsW, Arith.node, itemValueW, if_pos (show (Node.field (some f)).isArithBase = true from rfl),
      evalArithW, require_have (found_lookup h.1), ok_bind, itemsW_have fs vs h.2]
    rfl
  | [], _ :: _, h => h.elim
  | _ :: _, [], h => h.elim

theorem arithAllW_mem {W : Wraps} {env : Env} {d : Data} {g : JStr} {v : Value}
    (hv : getValueFromMap g d = .ok (some v)) : (es : List Arith) → .field g ∈ es → ∀ vs,
    evalArithAllW W env d (Arith.nodes es) = .ok vs → v ∈ vs
  | [], h, _, _ => by cases h
  | e :: es, h, vs, h' => by
    rw [Arith.nodes, evalArithAllW] at h'
    obtain ⟨w, hw, h'⟩ := bind_ok_inv h'
    obtain ⟨ws, hws, h'⟩ := bind_ok_inv h'
    injection h' with h'
    subst h'
    rcases List.mem_cons.mp h with rfl | h
    · rw [Arith.node, evalArithW, require_have hv] at hw
      injection hw with hw
      simp [hw]
    · exact List.mem_cons_of_mem _ (arithAllW_mem hv es h ws hws)

theorem object_mem {W : Wraps} {t : JStr} : (vs : List Value) → .other t ∈ vs →
    (.other t, DataType.string) ∈ flattenItemsW W vs
  | [], h => by cases h
  | v :: vs, h => by
    rw [flattenItemsW]
    rcases List.mem_cons.mp h with rfl | h
    · exact List.mem_append_left _ (List.mem_append_right _ (by
        rw [spread_type]; exact List.mem_singleton.mpr rfl))
    · exact List.mem_append_right _ (object_mem vs h)

theorem callFn_object {env : Env} {f : FuncType} (hf : f ≠ .len) {items : List Typed} {v : Value}
    (h : (v, DataType.string) ∈ items) : ∃ x, callFn env f items = .error x := by
  cases hr : callFn env f items with
  | error x => exact ⟨x, rfl⟩
  | ok w =>
    rw [callFn] at hr
    have ha : items.all (fun x => f.allows x.2) = true := by
      cases e : items.all (fun x => f.allows x.2) with
      | true => rfl
      | false =>
        rw [e] at hr
        by_cases h1 : items.isEmpty = true
        · rw [if_pos h1] at hr; cases hr
        · rw [if_neg h1] at hr
          by_cases h2 : (!if 1 < items.length then f.allowsMany else f.allowsOne) = true
          · rw [if_pos h2] at hr; cases hr
          · rw [if_neg h2] at hr; cases hr
    have := List.all_eq_true.mp ha _ h
    cases f <;> first | exact absurd rfl hf | cases this

/-! ### Conditions: calculations look into them, comparisons do not -/

theorem callFree_node : {e : Arith} → {after : Bool} → e.callFree = true → e.readable after = true → e.isAtom = false →
    (∃ o l r, e.node = .arith o l r) ∨ ∃ l, e.node = .neg l
  | .field _, _, _, _, h => by cases h
  | .lit _, _, _, _, h => by cases h
  | .group e, after, hc, hr, _ => by
    rw [Arith.readable, Bool.and_eq_true, Bool.not_eq_true'] at hr
    rw [Arith.node]
    exact callFree_node (e := e) hc hr.2 hr.1
  | .op o l r, _, _, _, _ => .inl ⟨_, _, _, by rw [Arith.node]⟩
  | .neg e, _, _, _, _ => .inr ⟨_, by rw [Arith.node]⟩

theorem operandW_same {W : Wraps} (hW : Honest W) {env : Env} {d d' : Data} {e : Arith} (hv : e.Valid)
    (hr : e.isAtom = true ∨ ∃ a, e.readable a = true) (hc : e.callFree = true) (h1 : OpenedW W e.calculated d d')
    (h2 : ∀ f ∈ e.direct, getValueFromMap f d' = getValueFromMap f d) (b b' : Result Bool) :
    operandValueW W env d e.node b = operandValue env d' e.node b' := by
  cases ha : e.isAtom with
  | true =>
    rw [Arith.direct, if_pos ha] at h2
    cases e <;> first | cases ha; done | skip
    · rename_i f
      rw [Arith.node, operandValueW, operandValue, lookupField, lookupField, h2 f (by simp [Arith.fields])]
    · rfl
  | false =>
    rcases hr with hr | ⟨a, hr⟩
    · rw [ha] at hr; cases hr
    rw [Arith.calculated, if_neg (by rw [ha]; decide)] at h1
    have hval : evalArith env d' e.node = evalArithW W env d e.node := by
      rw [← arith_node none e hv, arith_eval env d' none e hv, value_opened hW env e hc h1, arith_node none e hv]
      exact opened_known (operation_known hc hr ha)
    rcases callFree_node hc hr ha with ⟨o, l, r, hn⟩ | ⟨l, hn⟩
    · rw [hn] at hval ⊢
      simp only [operandValueW, operandValue, Node.isArithBase, if_true, hval]
    · rw [hn] at hval ⊢
      simp only [operandValueW, operandValue, Node.isArithBase, if_true, hval]

theorem cond_same {W : Wraps} (hW : Honest W) {env : Env} {d d' : Data} {df : Option JStr} : (c : Cond) → c.Valid →
    ∀ left, c.readable left = true → c.callFree = true → OpenedW W c.calculated d d' →
    (∀ f ∈ c.direct df, getValueFromMap f d' = getValueFromMap f d) →
    evalBoolW W env d (c.node df) = evalBool env d' (c.node df)
  | .cmp o l r, hv, left, hr, hc, h1, h2 => by
    obtain ⟨hl, hr⟩ := cmp_sides hr
    rw [Cond.callFree, Bool.and_eq_true] at hc
    rw [Cond.calculated] at h1
    rw [Cond.direct] at h2
    rw [Cond.node, evalBoolW, evalBool,
      operandW_same hW hv.1 hl hc.1 (fun f hf => h1 f (by simp [hf])) (fun f hf => h2 f (by simp [hf])) _ (evalBool env d' l.node),
      operandW_same hW hv.2.1 hr hc.2 (fun f hf => h1 f (by simp [hf])) (fun f hf => h2 f (by simp [hf])) _ (evalBool env d' r.node)]
  | .cmpD o r, hv, left, hr, hc, h1, h2 => by
    have hr' : r.isAtom = true ∨ ∃ a, r.readable a = true := by
      rw [Cond.readable] at hr
      by_cases ha : r.isAtom = true
      · exact .inl ha
      · rw [if_neg ha] at hr; exact .inr ⟨_, hr⟩
    rw [Cond.direct] at h2
    have hf : lookupField df d' = lookupField df d := by
      cases df with
      | none => rfl
      | some f => exact h2 f (by simp)
    rw [Cond.node, evalBoolW, evalBool,
      operandW_same hW hv.1 hr' hc h1 (fun f hf => h2 f (by simp [hf])) _ (evalBool env d' r.node),
      operandValueW, operandValue, hf]
  | .isNull f eq, _, _, _, _, _, h2 => by
    have hn : isNullCheck (if eq then .eq else .ne) (.field (some f)) (.field (some j!"null")) = .ok true := by
      cases eq <;> krfl
    rw [Cond.node, evalBoolW, evalBool, evalComparison, evalComparison, hn]
    simp only [operandValueW, operandValue, lookupField, h2 f (by simp [Cond.direct]), ok_bind, if_true]
  | .range f _ _, _, _, _, _, _, h2 => by
    rw [Cond.node, evalBoolW, evalBool, evalRange, evalRange, requireField, requireField, lookupField, lookupField,
      h2 f (by simp [Cond.direct])]
  | .notField f, _, _, _, _, _, h2 => by
    rw [Cond.node, evalBoolW, evalBool, evalBoolW, evalBool]
    unfold evalUnary
    rw [if_neg (by decide), if_neg (by decide)]
    show ((requireField (some f) d >>= _) >>= _) = ((requireField (some f) d' >>= _) >>= _)
    rw [requireField, requireField, lookupField, lookupField, h2 f (by simp [Cond.direct])]
  | .not c, hv, left, hr, hc, h1, h2 => by
    rw [Cond.node, evalBoolW, evalBool, cond_same hW c hv left hr hc h1 h2]
  | .group c, hv, left, hr, hc, h1, h2 => by
    rw [Cond.node]; exact cond_same hW c hv left hr hc h1 h2
  | .conn conj l r, hv, left, hr, hc, h1, h2 => by
    rw [Cond.callFree, Bool.and_eq_true] at hc
    rw [Cond.readable, Bool.and_eq_true, Bool.and_eq_true] at hr
    rw [Cond.calculated] at h1
    rw [Cond.direct] at h2
    have e1 := cond_same hW (env := env) (df := df) l hv.1 left hr.1 hc.1 (fun f hf => h1 f (by simp [hf]))
      (fun f hf => h2 f (by simp [hf]))
    have e2 := cond_same hW (env := env) (df := df) r hv.2 _ hr.2.1 hc.2 (fun f hf => h1 f (by simp [hf]))
      (fun f hf => h2 f (by simp [hf]))
    rw [Cond.node]
    cases conj
    · simp only [Bool.false_eq_true, if_false]
      rw [evalBoolW, evalBool, e1, e2]
    · simp only [if_true]
      rw [evalBoolW, evalBool, e1, e2]

end BoolParser
