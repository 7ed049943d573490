import Verif.Lemmas.LookupOn
import Verif.Lemmas.NonNull
import Verif.Lemmas.Causes
import Verif.Lemmas.CondNode
import Verif.Lemmas.Paths
import Verif.Lemmas.Meaning
/-!
# Evaluation stays within the families of the text and the data
-/

namespace BoolParser
open Spec

variable {L : Live} {F : Family → Prop}

theorem family_type (v : Value) : familyOf (getDataType v) = valueFamily v := by
  cases v with
  | str s => simp only [getDataType]; split <;> [rfl; (split <;> rfl)]
  | _ => rfl

/-- A number. -/
def NumberOnly (v : Value) : Prop := valueFamily v = .number ∧ elementsOf v = []

theorem counts_among (hF : F .number) {v : Value} (h : NumberOnly v) : AmongFamilies F v :=
  ⟨by rw [h.1]; exact hF, by rw [h.2]; intro w hw; cases hw⟩

theorem counts_castLong (n : Int) : NumberOnly (castLong n) := by unfold castLong; split <;> exact ⟨rfl, rfl⟩
theorem counts_castWhole (n : Int) : NumberOnly (castWhole n) := by unfold castWhole; split <;> exact ⟨rfl, rfl⟩

theorem counts_castDecimal (d : Dec) : Yields NumberOnly (castDecimal d) := by
  unfold castDecimal
  exact yields_ite (yields_bind' fun _ => yields_ok ⟨rfl, rfl⟩) (yields_ok ⟨rfl, rfl⟩)

theorem counts_castDouble (x : Dbl) : Yields NumberOnly (castDouble x) := by
  cases x with
  | nan => exact yields_err _
  | inf b => exact yields_err _
  | fin m e => simp only [castDouble]; refine yields_ok ?_; split <;> exact ⟨rfl, rfl⟩

theorem counts_evalArithOp (env : Env) (op : ArithOp) (l : Value) (lt : DataType) (r : Value) (rt : DataType) :
    Yields (fun v => NumberOnly v ∨ (op = .add ∧ (isStringType lt || isStringType rt) = true ∧ valueFamily v = .text ∧
      elementsOf v = [])) (evalArithOp env op l lt r rt) := by
  have ok : ∀ {v : Value} {Q : Prop}, NumberOnly v → NumberOnly v ∨ Q := fun h => .inl h
  have im : ∀ {x : Result Value} {Q : Value → Prop}, Yields NumberOnly x → Yields (fun v => NumberOnly v ∨ Q v) x :=
    fun h a ha => .inl (h a ha)
  cases op <;> simp only [evalArithOp]
  · by_cases hs : (isStringType lt || isStringType rt) = true
    · rw [if_pos hs]; exact yields_ok (.inr ⟨trivial, hs, rfl, rfl⟩)
    · rw [if_neg hs]
      exact yields_ite (yields_bind' fun _ => yields_bind' fun _ => yields_ok (ok ⟨rfl, rfl⟩))
        (yields_bind' fun _ => yields_bind' fun _ => yields_ok (ok (counts_castLong _)))
  · exact im (yields_ite (yields_bind' fun _ => yields_bind' fun _ => yields_ok ⟨rfl, rfl⟩)
      (yields_ite (yields_bind' fun _ => yields_bind' fun _ => yields_ok ⟨rfl, rfl⟩)
        (yields_bind' fun _ => yields_bind' fun _ => yields_ok ⟨rfl, rfl⟩)))
  · exact im (yields_ite (yields_bind' fun _ => yields_bind' fun _ => yields_ok ⟨rfl, rfl⟩)
      (yields_bind' fun _ => yields_bind' fun _ => yields_ok (counts_castLong _)))
  · exact im (yields_bind' fun _ => yields_bind' fun _ => yields_bind' fun _ => counts_castDecimal _)
  · refine im (yields_ite (yields_bind' fun _ => yields_bind' fun _ => ?_) (yields_bind' fun _ => yields_bind' fun _ => ?_))
    · split
      · exact yields_err _
      · exact yields_ok ⟨rfl, rfl⟩
    · split
      · exact yields_err _
      · exact yields_ok ⟨rfl, rfl⟩
  · exact im (yields_ite (yields_bind' fun _ => yields_bind' fun _ => counts_castDouble _)
      (yields_bind' fun _ => yields_bind' fun _ => counts_castDouble _))

theorem string_not_number {t : DataType} (h : isStringType t = true) : familyOf t ≠ .number := by
  cases t <;> simp [isStringType, familyOf] at h ⊢

theorem among_arithBinary (env : Env) (op : ArithOp) {l r : Value} (hn : F .number) (hc : op = .add → Closed F)
    (hl : AmongFamilies F l) (hr : AmongFamilies F r) :
    Yields (AmongFamilies F) (arithBinary env op l (getDataType l) r (getDataType r)) := by
  rw [arithBinary_eq]
  refine yields_ite (yields_err _) (yields_bind' fun _ => yields_ite (yields_err _) (yields_ite (yields_err _)
    (yields_bind' fun _ => yields_ite (yields_err _) ?_)))
  intro v hv
  rcases counts_evalArithOp env op l _ r _ v hv with h | ⟨ho, hs, hf, he⟩
  · exact counts_among hn h
  · refine ⟨?_, by rw [he]; intro w hw; cases hw⟩
    rw [hf]
    rcases hc ho with hall | ht
    · exfalso
      rcases Bool.or_eq_true _ _ ▸ hs with h | h
      · exact string_not_number h (by rw [family_type]; exact hall _ hl.1)
      · exact string_not_number h (by rw [family_type]; exact hall _ hr.1)
    · exact ht

theorem counts_arithNegate (v : Value) (t : DataType) : Yields NumberOnly (arithNegate v t) := by
  rw [arithNegate_eq]
  refine yields_ite (yields_err _) (yields_bind' fun _ => yields_ite (yields_err _) ?_)
  unfold evalNeg
  split <;> first | exact yields_err _ | exact yields_ok ⟨rfl, rfl⟩

theorem negate_family {v w : Value} (h : arithNegate v (getDataType v) = .ok w) : valueFamily v = .number := by
  rw [arithNegate_eq] at h
  rw [← family_type]
  revert h
  cases getDataType v <;> simp [familyOf]

theorem counts_callFn (env : Env) (f : FuncType) (items : List Typed) (h : ∀ x ∈ items, x.2 = getDataType x.1) :
    Yields NumberOnly (callFn env f items) := by
  rw [callFn_eq]
  refine yields_ite (yields_err _) (yields_ite (yields_err _) ?_)
  by_cases hall : items.all (fun x => f.allows x.2) = true
  swap
  · rw [if_pos (by simpa using hall)]; exact yields_err _
  refine yields_ite (yields_err _) (yields_bind' fun _ => ?_)
  have hlist : ∀ {ds : List Dec} {g : Dec → List Dec → Dec},
      Yields NumberOnly (match ds with | [] => (.error .noSuchElement : Result Value) | d :: ds => castDecimal (g d ds)) := by
    intro ds g; cases ds <;> [exact yields_err _; exact counts_castDecimal _]
  have num : ∀ x ∈ items, (f ≠ .len ∧ f ≠ .daysElapsed) → NumberOnly x.1 := by
    intro x hx hf
    have h1 := List.all_eq_true.mp hall x hx
    rw [h x hx] at h1
    have h2 : isNum (getDataType x.1) := by
      unfold isNum
      cases f <;> first | exact absurd rfl hf.1 | exact absurd rfl hf.2 | (simpa [FuncType.allows, or_assoc] using h1)
    rcases h2 with h2 | h2 | h2
    · obtain ⟨n, e⟩ := type_integer h2; rw [e]; exact ⟨rfl, rfl⟩
    · obtain ⟨n, e⟩ := type_long h2; rw [e]; exact ⟨rfl, rfl⟩
    · rcases type_decimal h2 with ⟨d, e⟩ | ⟨t, e⟩ | ⟨t, e⟩ <;> rw [e] <;> exact ⟨rfl, rfl⟩
  cases f <;> simp only [evalFn]
  · unfold minFn
    refine yields_ite (yields_bind' fun ds => ?_) (yields_ite (yields_bind' fun ds => ?_) (yields_bind' fun ds => ?_))
    all_goals
      cases ds with
      | nil => exact yields_err _
      | cons d ds => first | exact counts_castDecimal _ | exact yields_ok (counts_castWhole _)
  · unfold maxFn
    refine yields_ite (yields_bind' fun ds => ?_) (yields_ite (yields_bind' fun ds => ?_) (yields_bind' fun ds => ?_))
    all_goals
      cases ds with
      | nil => exact yields_err _
      | cons d ds => first | exact counts_castDecimal _ | exact yields_ok (counts_castWhole _)
  · unfold avgFn
    exact yields_ite (yields_bind' fun ds => yields_bind' fun _ => counts_castDecimal _)
      (yields_bind' fun ds => yields_bind' fun _ => counts_castDecimal _)
  · unfold sumFn
    exact yields_ite (yields_bind' fun ds => counts_castDecimal _) (yields_bind' fun ds => yields_ok (counts_castWhole _))
  · unfold avgFn
    exact yields_ite (yields_bind' fun ds => yields_bind' fun _ => counts_castDecimal _)
      (yields_bind' fun ds => yields_bind' fun _ => counts_castDecimal _)
  · cases items with
    | nil => exact yields_err _
    | cons x xs =>
      have hm := modeGo_item x xs
      obtain ⟨y, hy, e⟩ := List.mem_map.mp hm
      have hn := num y hy ⟨by simp, by simp⟩
      rw [e] at hn
      unfold modeFn
      simp only
      revert hn
      generalize modeGo _ _ _ _ = v
      intro hn
      split
      · exact counts_castDecimal _
      · exact yields_ok (counts_castLong _)
      · exact yields_ok hn
  · unfold medianFn
    refine yields_bind' fun ds => yields_ite (yields_bind' fun _ => yields_bind' fun _ => yields_bind' fun _ =>
      counts_castDecimal _) (yields_bind' fun _ => counts_castDecimal _)
  · cases items with
    | nil => exact yields_err _
    | cons x xs =>
      obtain ⟨v, t⟩ := x
      have hn := num (v, t) (by simp) ⟨by simp, by simp⟩
      unfold intFn
      refine yields_ite (yields_bind' fun _ => yields_ok ⟨rfl, rfl⟩) (yields_ite ?_ (yields_ok hn))
      split
      · exact yields_ok ⟨rfl, rfl⟩
      · exact yields_err _
  · unfold lenFn
    split <;> exact yields_ok ⟨rfl, rfl⟩
  · unfold daysFn
    split
    · exact yields_ok ⟨rfl, rfl⟩
    · split
      · exact yields_ok ⟨rfl, rfl⟩
      · exact yields_err _
    · exact yields_err _
    · exact yields_err _

/-! ### Nodes -/

mutual
/-- The families of a node. -/
def Meets (F : Family → Prop) (d : Data) : Node → Prop
  | .cmp l r op _ => (isNullCheck op l r = .ok true → F .text) ∧ Meets F d l ∧
      (isNullCheck op l r = .ok true ∨ Meets F d r) ∧ (l.isArithBase = false → F .truth) ∧ (r.isArithBase = false → F .truth)
  | .range f _ _ s t => (∀ v, requireField (some f) d = .ok v → AmongFamilies F v) ∧ F (familyOf s) ∧ F (familyOf t)
  | .inn f items => (∀ v, requireField (some f) d = .ok v → AmongFamilies F v) ∧ MeetsAll F d items
  | .array f _ items => (∀ v, requireField (some f) d = .ok v → AmongFamilies F v) ∧ MeetsAll F d items
  | .unary _ v => AmongFamilies F v
  | .and_ l r => Meets F d l ∧ Meets F d r
  | .or_ l r => Meets F d l ∧ Meets F d r
  | .not_ l => (∃ t v, l = .unary t v) ∨ Meets F d l
  | .field f => ∀ v, requireField f d = .ok v → AmongFamilies F v
  | .arith op l r => F .number ∧ (op = .add → Closed F) ∧ Meets F d l ∧ Meets F d r
  | .neg l => F .number ∧ Meets F d l
  | .func _ items => F .number ∧ MeetsAll F d items
def MeetsAll (F : Family → Prop) (d : Data) : List Node → Prop
  | [] => True
  | n :: ns => (n.isArithBase = false → F .truth) ∧ Meets F d n ∧ MeetsAll F d ns
end

/-- The types of the families are the library's own. -/
abbrev OnFamilies (L : Live) (F : Family → Prop) : Prop := L.On fun t => F (familyOf t)

theorem among_type {v : Value} (h : AmongFamilies F v) : F (familyOf (getDataType v)) := by
  rw [family_type]; exact h.1

theorem among_items {vs : List Value} (h : ∀ v ∈ vs, AmongFamilies F v) : ∀ x ∈ flattenItems vs, F (familyOf x.2) := by
  induction vs with
  | nil => intro x hx; cases hx
  | cons v vs ih =>
    have ih := ih fun w hw => h w (by simp [hw])
    have hv := h v (by simp)
    rw [flattenItems_cons]
    intro x hx
    rcases List.mem_append.1 hx with hx | hx
    · split at hx
      · obtain ⟨w, hw, rfl⟩ := List.mem_map.1 hx
        rw [family_type]; exact hv.2 w hw
      · obtain ⟨w, hw, rfl⟩ := List.mem_map.1 hx
        rw [family_type]; exact hv.2 w hw
      · rw [List.mem_singleton] at hx; subst hx; exact among_type hv
    · exact ih x hx

theorem arith_fetches {op : ArithOp} {lt rt t : DataType} (h : op.fetches lt rt = some t) : familyOf t = .number := by
  cases op <;> simp only [ArithOp.fetches] at h <;> (repeat' split at h) <;> cases h <;> rfl

theorem func_fetches {f : FuncType} {items : List Typed} {t : DataType} (h : f.fetches items = some t) :
    familyOf t = .number := by
  cases f <;> simp only [FuncType.fetches] at h <;> (repeat' split at h) <;> cases h <;> rfl

mutual
theorem within_arith (h : OnFamilies L F) (env : Env) (d : Data) (n : Node) (hw : Meets F d n) :
    Refines (evalArithL L env d n) (evalArith env d n) ∧ Yields (AmongFamilies F) (evalArith env d n) := by
  cases n with
  | arith op l r =>
    rw [Meets] at hw
    rw [evalArithL, evalArith]
    obtain ⟨h1, h2⟩ := within_arith h env d l hw.2.2.1
    obtain ⟨h3, h4⟩ := within_arith h env d r hw.2.2.2
    refine ⟨refines_bind_of h1 fun a ha => refines_bind_of h3 fun b hb => ?_,
      yields_bind h2 fun a ha => yields_bind h4 fun b hb => among_arithBinary env op hw.1 hw.2.1 ha hb⟩
    refine on_arithBinary h env op a (among_type (h2 a ha)) b (among_type (h4 b hb)) fun t ht => ?_
    show F (familyOf t)
    rw [arith_fetches ht]; exact hw.1
  | neg l =>
    rw [Meets] at hw
    rw [evalArithL, evalArith]
    obtain ⟨h1, h2⟩ := within_arith h env d l hw.2
    exact ⟨refines_bind_of h1 fun a ha => on_arithNegate h a (among_type (h2 a ha)),
      yields_bind' fun a v hv => counts_among hw.1 (counts_arithNegate a _ v hv)⟩
  | func f items =>
    rw [Meets] at hw
    obtain ⟨h1, h2⟩ := within_arithAll h env d items hw.2
    rw [evalArithL, evalArith]
    refine ⟨refines_bind_of h1 fun vs hvs => on_callFn h env f _ (among_items (h2 vs hvs)) fun t ht => ?_,
      yields_bind' fun vs v hv => counts_among hw.1 (counts_callFn env f _ (flattenItems_types vs) v hv)⟩
    show F (familyOf t)
    rw [func_fetches ht]; exact hw.1
  | unary t v => simp only [evalArithL, evalArith]; exact ⟨refines_pure _, yields_ok hw⟩
  | field f => simp only [evalArithL, evalArith]; exact ⟨refines_lift _, hw⟩
  | _ => simp only [evalArithL, evalArith]; exact ⟨refines_lift _, yields_err _⟩
theorem within_arithAll (h : OnFamilies L F) (env : Env) (d : Data) (ns : List Node) (hw : MeetsAll F d ns) :
    Refines (evalArithAllL L env d ns) (evalArithAll env d ns) ∧
      Yields (fun vs => ∀ v ∈ vs, AmongFamilies F v) (evalArithAll env d ns) := by
  cases ns with
  | nil => simp only [evalArithAllL, evalArithAll]; exact ⟨refines_pure _, yields_ok (by simp)⟩
  | cons n ns =>
    rw [MeetsAll] at hw
    obtain ⟨h1, h2⟩ := within_arith h env d n hw.2.1
    obtain ⟨h3, h4⟩ := within_arithAll h env d ns hw.2.2
    rw [evalArithAllL, evalArithAll]
    refine ⟨refines_bind h1 fun v => refines_bind h3 fun vs => refines_pure _, ?_⟩
    refine yields_bind h2 fun v hv => yields_bind h4 fun vs hvs => yields_ok ?_
    intro w hw
    rcases List.mem_cons.1 hw with rfl | hw
    · exact hv
    · exact hvs w hw
end

theorem within_inner (h : OnFamilies L F) (env : Env) (d : Data) (n : Node) (hw : Meets F d n) :
    Refines (evalArithL L env d n >>= fun v => lift (optOf v)) (evalArith env d n >>= optOf) ∧
      Yields (fun o => ∀ v, o = some v → AmongFamilies F v) (evalArith env d n >>= optOf) := by
  obtain ⟨h1, h2⟩ := within_arith h env d n hw
  refine ⟨refines_bind h1 fun v => refines_lift _, yields_bind h2 fun v hv o ho w hw => ?_⟩
  cases v <;> simp only [optOf] at ho <;> cases ho <;> cases hw <;> exact hv

theorem within_operand (h : OnFamilies L F) (env : Env) (d : Data) (n : Node) (hw : Meets F d n)
    (ht : n.isArithBase = false → F .truth) {b : M Bool} {r : Result Bool} (hb : Refines b r) :
    Refines (operandValueL L env d n b) (operandValue env d n r) ∧
      Yields (fun o => ∀ v, o = some v → AmongFamilies F v) (operandValue env d n r) := by
  have other : n.isArithBase = false → Refines (b >>= fun x => pure (some (Value.bool x))) (r >>= fun x => pure (some (Value.bool x))) ∧
      Yields (fun o => ∀ v, o = some v → AmongFamilies F v) (r >>= fun x => pure (some (Value.bool x))) := fun hn =>
    ⟨refines_bind hb fun x => refines_pure _, yields_bind' fun x => yields_ok fun v hv => by
      cases hv; exact ⟨ht hn, by intro w hw; cases hw⟩⟩
  cases n
  case field f =>
    refine ⟨refines_lift _, fun o ho v hv => hw v ?_⟩
    subst hv
    have ho : lookupField f d = .ok (some v) := ho
    unfold requireField; rw [ho]; rfl
  case unary t v =>
    refine ⟨refines_lift _, fun o ho w hw' => ?_⟩
    have ho : optOf v = .ok o := ho
    subst hw'
    have hw : AmongFamilies F v := hw
    cases v <;> simp only [optOf] at ho <;> cases ho <;> exact hw
  case arith => exact within_inner h env d _ hw
  case neg => exact within_inner h env d _ hw
  case func => exact within_inner h env d _ hw
  all_goals exact other rfl

theorem within_comparison (h : OnFamilies L F) (op : CmpOp) (l r : Node) (hnull : isNullCheck op l r = .ok true → F .text)
    {lv rv : M (Option Value)} {lv' rv' : Result (Option Value)} (hl : Refines lv lv')
    (hl' : Yields (fun o => ∀ v, o = some v → AmongFamilies F v) lv')
    (hr : isNullCheck op l r = .ok true ∨
      (Refines rv rv' ∧ Yields (fun o => ∀ v, o = some v → AmongFamilies F v) rv')) :
    Refines (evalComparisonL L op l r lv rv) (evalComparison op l r lv' rv') := by
  have null : F .text → F (familyOf (getDataType (.str j!"null"))) := fun h => by rw [family_type]; exact h
  refine refines_bind_of hl fun lo hlo => ?_
  refine refines_bind_of (refines_lift _) fun nc hnc => ?_
  have hlo' := hl' lo hlo
  cases nc with
  | true =>
    refine refines_bind_ok (a := lo.getD (.str j!"null")) (refines_pure _) ?_
    refine refines_bind_ok (a := .str j!"null") (refines_pure _) ?_
    refine on_logicalCmp h _ _ ?_ _ (null (hnull hnc))
    cases lo with
    | none => exact null (hnull hnc)
    | some v => exact among_type (hlo' v rfl)
  | false =>
    obtain ⟨hr, hr'⟩ := hr.resolve_left (by rw [hnc]; simp)
    cases lo with
    | none => exact fun k => rfl
    | some v =>
      refine refines_bind_ok (a := v) (refines_pure _) ?_
      show Refines ((do let ro ← rv; match ro with | some v => pure v | none => lift (.error .noSuchElement)) >>= fun b =>
        logicalCmpL L op v (getDataType v) b (getDataType b))
        ((do let ro ← rv'; match ro with | some v => pure v | none => throw .noSuchElement) >>= fun b =>
        logicalCmp op v (getDataType v) b (getDataType b))
      refine refines_bind_of (refines_bind hr fun ro => ?_) fun w hw => on_logicalCmp h _ _ (among_type (hlo' v rfl)) _ ?_
      · cases ro with
        | none => exact refines_lift _
        | some v => exact refines_pure _
      · obtain ⟨ro, hro, hw⟩ := bind_ok_inv hw
        cases ro with
        | none => cases hw
        | some u =>
          have e : u = w := Except.ok.inj hw
          rw [← e]; exact among_type (hr' _ hro u rfl)

theorem within_item (h : OnFamilies L F) (env : Env) (d : Data) (n : Node) (hw : Meets F d n)
    (ht : n.isArithBase = false → F .truth) {b : M Bool} {r : Result Bool} (hb : Refines b r) :
    Refines (itemValueL L env d n b) (itemValue env d n r) ∧ Yields (AmongFamilies F) (itemValue env d n r) := by
  unfold itemValueL itemValue
  by_cases hn : n.isArithBase = true
  · rw [if_pos hn, if_pos hn]; exact within_arith h env d n hw
  · rw [if_neg hn, if_neg hn]
    refine ⟨refines_bind hb fun _ => refines_pure _, yields_bind' fun x => yields_ok ⟨ht (by simpa using hn), ?_⟩⟩
    intro w hw; cases hw

mutual
theorem within_bool (h : OnFamilies L F) (env : Env) (d : Data) (n : Node) (hw : Meets F d n) :
    Refines (evalBoolL L env d n) (evalBool env d n) := by
  cases n with
  | cmp l r op t =>
    rw [Meets] at hw
    obtain ⟨h1, h2⟩ := within_operand h env d l hw.2.1 hw.2.2.2.1 (within_bool h env d l hw.2.1)
    rw [evalBoolL, evalBool]
    refine within_comparison h op l r hw.1 h1 h2 ?_
    rcases hw.2.2.1 with hn | hr
    · exact .inl hn
    · exact .inr (within_operand h env d r hr hw.2.2.2.2 (within_bool h env d r hr))
  | range f lo hi loT hiT =>
    rw [Meets] at hw
    simp only [evalBoolL, evalBool]
    exact refines_bind_of (refines_lift _) fun v hv =>
      refines_bind (on_logicalCmp h _ _ (among_type (hw.1 v hv)) _ hw.2.1) fun _ =>
        refines_bind (on_logicalCmp h _ _ (among_type (hw.1 v hv)) _ hw.2.2) fun _ => refines_pure _
  | inn f items =>
    rw [Meets] at hw
    obtain ⟨h1, h2⟩ := within_items h env d items hw.2
    rw [evalBoolL, evalBool]
    exact refines_bind_of (refines_lift _) fun v hv => refines_bind_of h1 fun vs hvs =>
      on_logicalIn h _ (among_type (hw.1 v hv)) _ (among_items (h2 vs hvs))
  | array f op items =>
    rw [Meets] at hw
    obtain ⟨h1, h2⟩ := within_items h env d items hw.2
    rw [evalBoolL, evalBool]
    exact refines_bind_of (refines_lift _) fun v hv => refines_bind_of h1 fun vs hvs =>
      refines_check (on_logicalArray h _ _ (among_type (hw.1 v hv)) _ (among_items (h2 vs hvs)))
  | unary t v => simp only [evalBoolL, evalBool]; exact refines_lift _
  | and_ l r =>
    rw [Meets] at hw
    rw [evalBoolL, evalBool]
    exact refines_bind (within_bool h env d l hw.1) fun a =>
      refines_ite (fun _ => within_bool h env d r hw.2) fun _ => refines_pure _
  | or_ l r =>
    rw [Meets] at hw
    rw [evalBoolL, evalBool]
    exact refines_bind (within_bool h env d l hw.1) fun a =>
      refines_ite (fun _ => refines_pure _) fun _ => within_bool h env d r hw.2
  | not_ l =>
    rw [Meets] at hw
    rw [evalBoolL, evalBool]
    refine refines_bind ?_ fun a => refines_pure _
    cases l with
    | unary t v => simp only [evalBoolL, evalBool]; exact refines_lift _
    | _ => exact within_bool h env d _ (hw.resolve_left (by rintro ⟨t, v, e⟩; cases e))
  | _ => simp only [evalBoolL, evalBool]; exact refines_pure _
theorem within_items (h : OnFamilies L F) (env : Env) (d : Data) (ns : List Node) (hw : MeetsAll F d ns) :
    Refines (evalItemsL L env d ns) (evalItems env d ns) ∧
      Yields (fun vs => ∀ v ∈ vs, AmongFamilies F v) (evalItems env d ns) := by
  cases ns with
  | nil => simp only [evalItemsL, evalItems]; exact ⟨refines_pure _, yields_ok (by simp)⟩
  | cons n ns =>
    rw [MeetsAll] at hw
    obtain ⟨h1, h2⟩ := within_item h env d n hw.2.1 hw.1 (within_bool h env d n hw.2.1)
    obtain ⟨h3, h4⟩ := within_items h env d ns hw.2.2
    rw [evalItemsL, evalItems]
    refine ⟨refines_bind h1 fun v => refines_bind h3 fun vs => refines_pure _, ?_⟩
    refine yields_bind h2 fun v hv => yields_bind h4 fun vs hvs => yields_ok ?_
    intro w hw
    rcases List.mem_cons.1 hw with rfl | hw
    · exact hv
    · exact hvs w hw
end

/-! ### Conditions -/

theorem require_of {f : JStr} {d : Data} {v : Value} (h : requireField (some f) d = .ok v) :
    getValueFromMap f d = .ok (some v) := by
  unfold requireField at h
  obtain ⟨o, ho, h⟩ := bind_ok_inv h
  cases o with
  | none => cases h
  | some w => cases h; exact ho

theorem lit_family (l : Lit) : familyOf (getDataType l.value) = l.family := by
  rw [family_type]
  cases l with
  | int ds => simp only [Lit.value]; split <;> rfl
  | _ => rfl

theorem type_family (l : Lit) : familyOf l.type = l.family := by
  cases l with
  | int ds => simp only [Lit.type]; split <;> rfl
  | _ => rfl

theorem lit_among {l : Lit} (h : F l.family) : AmongFamilies F l.value := by
  refine ⟨by rw [← family_type, lit_family]; exact h, ?_⟩
  cases l with
  | int ds => simp only [Lit.value]; split <;> (intro w hw; cases hw)
  | _ => intro w hw; cases hw

theorem node_base : (e : Arith) → e.node.isArithBase = true
  | .field _ => rfl
  | .lit _ => rfl
  | .group e => by rw [Arith.node]; exact node_base e
  | .op _ _ _ => rfl
  | .neg _ => rfl
  | .call _ _ => rfl

mutual
theorem arith_within {d : Data} (e : Arith) (hd : ∀ f ∈ e.fields, ∀ v, getValueFromMap f d = .ok (some v) → AmongFamilies F v)
    (hi : ∀ φ, e.Involves φ → F φ) (ha : e.Adds → Closed F) : Meets F d e.node := by
  cases e with
  | field f =>
    simp only [Arith.node, Meets]
    exact fun v hv => hd f (by simp [Arith.fields]) v (require_of hv)
  | lit l =>
    simp only [Arith.node, Meets]
    exact lit_among (hi _ (by simp [Arith.Involves]))
  | group e =>
    simp only [Arith.node]
    exact arith_within e (by simpa [Arith.fields] using hd) (by simpa [Arith.Involves] using hi) (by simpa [Arith.Adds] using ha)
  | op o l r =>
    simp only [Arith.node, Meets]
    simp only [Arith.fields, List.mem_append] at hd
    simp only [Arith.Involves] at hi
    simp only [Arith.Adds] at ha
    exact ⟨hi _ (.inl rfl), fun ho => ha (.inl ho),
      arith_within l (fun f hf => hd f (.inl hf)) (fun φ h => hi φ (.inr (.inl h))) (fun h => ha (.inr (.inl h))),
      arith_within r (fun f hf => hd f (.inr hf)) (fun φ h => hi φ (.inr (.inr h))) (fun h => ha (.inr (.inr h)))⟩
  | neg e =>
    simp only [Arith.node, Meets]
    simp only [Arith.Involves] at hi
    exact ⟨hi _ (.inl rfl), arith_within e (by simpa [Arith.fields] using hd) (fun φ h => hi φ (.inr h))
      (by simpa [Arith.Adds] using ha)⟩
  | call f args =>
    simp only [Arith.node, Meets]
    simp only [Arith.Involves] at hi
    exact ⟨hi _ (.inl rfl), args_within args (by simpa [Arith.fields] using hd) (fun φ h => hi φ (.inr h))
      (by simpa [Arith.Adds] using ha)⟩
theorem args_within {d : Data} (es : List Arith)
    (hd : ∀ f ∈ Arith.allFields es, ∀ v, getValueFromMap f d = .ok (some v) → AmongFamilies F v)
    (hi : ∀ φ, Arith.AllInvolve φ es → F φ) (ha : Arith.AnyAdds es → Closed F) : MeetsAll F d (Arith.nodes es) := by
  cases es with
  | nil => simp only [Arith.nodes, MeetsAll]
  | cons e es =>
    simp only [Arith.nodes, MeetsAll]
    simp only [Arith.allFields, List.mem_append] at hd
    simp only [Arith.AllInvolve] at hi
    simp only [Arith.AnyAdds] at ha
    exact ⟨(fun h => by rw [node_base] at h; cases h),
      arith_within e (fun f hf => hd f (.inl hf)) (fun φ h => hi φ (.inl h)) (fun h => ha (.inl h)),
      args_within es (fun f hf => hd f (.inr hf)) (fun φ h => hi φ (.inr h)) (fun h => ha (.inr h))⟩
end

theorem never_base {e : Arith} {P : Prop} (h : e.node.isArithBase = false) : P := by rw [node_base] at h; cases h

theorem plain_check {op : CmpOp} {l r : Node}
    (h : (op = .eq ∨ op = .ne) → l.isNullField = .ok false ∧ r.isNullField = .ok false) :
    isNullCheck op l r = .ok false := by
  unfold isNullCheck
  split
  · rename_i ho
    have ho' : op = .eq ∨ op = .ne := by simpa using ho
    rw [(h ho').2, ok_bind]
    exact (h ho').1
  · rfl

theorem cond_within {d : Data} {df : Option JStr} (hdf : DefaultOk df) : (c : Cond) → c.Valid →
    ∀ left, c.readable left = true →
    (∀ f ∈ c.fields df, ∀ v, getValueFromMap f d = .ok (some v) → AmongFamilies F v) →
    (∀ φ, c.Involves φ → F φ) → (c.Adds → Closed F) → Meets F d (c.node df)
  | .cmp o l r, hv, left, hrd, hd, hi, ha => by
    obtain ⟨h1, h2⟩ := cmp_sides hrd
    simp only [Cond.fields, List.mem_append] at hd
    simp only [Cond.Involves] at hi
    simp only [Cond.Adds] at ha
    simp only [Cond.node, Meets]
    refine ⟨?_, arith_within l (fun f hf => hd f (.inl hf)) (fun φ h => hi φ (.inl h)) (fun h => ha (.inl h)),
      .inr (arith_within r (fun f hf => hd f (.inr hf)) (fun φ h => hi φ (.inr h)) (fun h => ha (.inr h))),
      never_base, never_base⟩
    intro hn
    rw [plain_check] at hn
    · cases hn
    · intro ho
      rw [← arith_node df l hv.1, ← arith_node df r hv.2.1]
      exact ⟨nullField_false df hv.1 h1 (hv.2.2 ho).1, nullField_false df hv.2.1 h2 (hv.2.2 ho).2⟩
  | .cmpD o r, hv, left, hrd, hd, hi, ha => by
    have h2 : r.isAtom = true ∨ ∃ a, r.readable a = true := by
      rw [Cond.readable] at hrd
      by_cases hr : r.isAtom = true
      · exact .inl hr
      · rw [if_neg hr] at hrd; exact side_ok hrd
    simp only [Cond.fields, List.mem_append] at hd
    simp only [Cond.Involves] at hi
    simp only [Cond.Adds] at ha
    simp only [Cond.node, Meets]
    refine ⟨?_, ?_, .inr (arith_within r (fun f hf => hd f (.inr hf)) hi ha), (fun h => by cases h), never_base⟩
    · intro hn
      cases df with
      | none =>
        exfalso
        revert hn
        unfold isNullCheck
        split
        · rename_i ho
          have ho' : o = .eq ∨ o = .ne := by simpa using ho
          rw [← arith_node none r hv.1, nullField_false none hv.1 h2 (hv.2 ho'), ok_bind]
          intro h; cases h
        · intro h; cases h
      | some f =>
        rw [plain_check] at hn
        · cases hn
        · intro ho
          rw [← arith_node (some f) r hv.1]
          refine ⟨?_, nullField_false _ hv.1 h2 (hv.2 ho)⟩
          rw [Node.isNullField, hdf f rfl]
    · intro v hv
      cases df with
      | none => cases hv
      | some f => exact hd f (.inl (by simp)) v (require_of hv)
  | .isNull f eq, hv, left, hrd, hd, hi, ha => by
    simp only [Cond.fields, List.mem_singleton] at hd
    have hn : isNullCheck (if eq then .eq else .ne) (.field (some f)) (.field (some j!"null")) = .ok true := by
      cases eq <;> rfl
    simp only [Cond.node, Meets]
    exact ⟨fun _ => hi _ rfl, fun v hv => hd f rfl v (require_of hv), .inl hn, (fun h => by cases h), (fun h => by cases h)⟩
  | .range f lo hi', hv, left, hrd, hd, hi, ha => by
    simp only [Cond.fields, List.mem_singleton] at hd
    simp only [Cond.Involves] at hi
    simp only [Cond.node, Meets]
    refine ⟨fun v hv => hd f rfl v (require_of hv), ?_, ?_⟩
    · rw [type_family]; exact hi _ (.inl rfl)
    · rw [type_family]; exact hi _ (.inr rfl)
  | .isIn f neg items, hv, left, hrd, hd, hi, ha => by
    simp only [Cond.fields, List.mem_cons] at hd
    simp only [Cond.Involves] at hi
    simp only [Cond.Adds] at ha
    have := args_within items (fun f hf => hd f (.inr hf)) hi ha
    simp only [Cond.node]
    split
    · rw [Meets]; right; rw [Meets]; exact ⟨fun v hv => hd f (.inl rfl) v (require_of hv), this⟩
    · rw [Meets]; exact ⟨fun v hv => hd f (.inl rfl) v (require_of hv), this⟩
  | .contains f o items, hv, left, hrd, hd, hi, ha => by
    simp only [Cond.fields, List.mem_cons] at hd
    simp only [Cond.Involves] at hi
    simp only [Cond.Adds] at ha
    simp only [Cond.node, Meets]
    exact ⟨fun v hv => hd f (.inl rfl) v (require_of hv), args_within items (fun f hf => hd f (.inr hf)) hi ha⟩
  | .notField f, hv, left, hrd, hd, hi, ha => by simp only [Cond.node, Meets]; exact .inl ⟨_, _, rfl⟩
  | .not c, hv, left, hrd, hd, hi, ha => by
    simp only [Cond.node, Meets]
    exact .inr (cond_within hdf c hv left hrd (by simpa [Cond.fields] using hd) hi ha)
  | .group c, hv, left, hrd, hd, hi, ha => by
    simp only [Cond.node]
    exact cond_within hdf c hv left hrd (by simpa [Cond.fields] using hd) hi ha
  | .conn conj l r, hv, left, hrd, hd, hi, ha => by
    simp only [Cond.fields, List.mem_append] at hd
    simp only [Cond.Involves] at hi
    simp only [Cond.Adds] at ha
    rw [Cond.readable, Bool.and_eq_true, Bool.and_eq_true] at hrd
    have h1 := cond_within hdf l hv.1 _ hrd.1 (fun f hf => hd f (.inl hf)) (fun φ h => hi φ (.inl h)) (fun h => ha (.inl h))
    have h2 := cond_within hdf r hv.2 _ hrd.2.1 (fun f hf => hd f (.inr hf)) (fun φ h => hi φ (.inr h)) (fun h => ha (.inr h))
    simp only [Cond.node]
    split <;> (rw [Meets]; exact ⟨h1, h2⟩)

end BoolParser
