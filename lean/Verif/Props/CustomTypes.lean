import Verif.Lemmas.CustomTypes
/-!
# C83: what a data type of the user touches

A program may register its own object for a data type (C48). The theorems say which evaluations notice it.
-/

namespace BoolParser
open Spec

/-! ### The theorems -/

/-- **C83**, conditions. If everything the condition compares and computes with belongs to some families of types (the
literals, the operators and the data, see `Cond.Involves`), then data types registered for other families make no
difference: the program evaluates the text as one that registered nothing. -/
theorem C83_condition {s : JStr} {c : Cond} (h : Writes s c) {df : Option JStr} (hdf : DefaultOk df)
    (hpath : ∀ f, df = some f → ∃ ks, Names f ks) (F : Family → Prop) {d : Data}
    (hd : ∀ f ∈ c.fields df, ∀ ks v, Names f ks → Reaches d ks v → AmongFamilies F v)
    (hi : ∀ φ, c.Involves φ → F φ) (hadd : c.Adds → Closed F)
    (P : Request → Result Node) (hP : IsBoolParser P) {es : List Event} (he : HasEvaluator es)
    (hreg : ∀ t id, Event.register t id ∈ es → ¬ F (familyOf t)) (U : Users) (env : Env) :
    Outcome.ofResult ((World.after P es).evaluate P U env .plain ⟨s, df⟩ d) = evaluate env s d df := by
  have hw : Meets F d (c.node df) := by
    refine cond_within hdf c h.valid _ h.readable (fun f hf v hv => ?_) hi hadd
    obtain ⟨ks, hn⟩ : ∃ ks, Names f ks := by
      rcases cond_names c h.valid f hf with hn | hn
      · exact isName_names hn
      · exact hpath f hn
    exact among_lookup hn (hd f hf) v hv
  rw [evaluate, h.node df, World.evaluate, World.parse, node_parsed hP (h.node df), ok_bind,
    within_bool (own_on P he hreg U) env d _ hw 0]
  rfl

/-- A program with its own STRING type: the condition is about numbers only and does not notice. -/
example (P : Request → Result Node) (hP : IsBoolParser P) (U : Users) (env : Env) :
    Outcome.ofResult ((World.after P [.construct .boolEvaluator, .register .string 7]).evaluate P U env .plain
        ⟨j!"a > 5 AND (b + 1) < c", none⟩ [(['a'], .int 7), (['b'], .int 1), (['c'], .int 9)]) = .success true := by
  rw [C83_condition (c := .conn true (.cmp .gt (.field ['a']) (.lit (.int ['5'])))
      (.cmp .lt (.group (.op .add (.field ['b']) (.lit (.int ['1'])))) (.field ['c'])))
    (writes_of (by krfl)) (fun _ h => by cases h) (fun _ h => by cases h) (fun φ => φ = .number) ?_ ?_ (fun _ => .inl fun _ h => h) P hP
    (.inr (by simp)) (by rintro t id h; simp at h; rw [h.1]; decide) U env]
  · krfl
  · intro f hf ks v hn hr
    simp only [Cond.fields, Arith.fields, List.cons_append, List.nil_append, List.append_nil, List.mem_cons,
      List.not_mem_nil, or_false] at hf
    have hr := (lookup_some hn _ v).mpr hr
    rcases hf with rfl | rfl | rfl
    · rw [show getValueFromMap _ _ = .ok (some (.int 7)) by krfl] at hr; cases hr; exact ⟨rfl, by simp [elementsOf]⟩
    · rw [show getValueFromMap _ _ = .ok (some (.int 1)) by krfl] at hr; cases hr; exact ⟨rfl, by simp [elementsOf]⟩
    · rw [show getValueFromMap _ _ = .ok (some (.int 9)) by krfl] at hr; cases hr; exact ⟨rfl, by simp [elementsOf]⟩
  · intro φ h
    simp [Cond.Involves, Arith.Involves, Lit.family] at h
    exact h

/-- **C83**, arithmetic. -/
theorem C83_arithmetic {s : JStr} {e : Arith} (h : WritesArith s e) (F : Family → Prop) {d : Data}
    (hd : ∀ f ∈ e.fields, ∀ ks v, Names f ks → Reaches d ks v → AmongFamilies F v)
    (hi : ∀ φ, e.Involves φ → F φ) (hadd : e.Adds → Closed F)
    (P : Request → Result Node) (hP : IsBoolParser P) {es : List Event} (he : HasEvaluator es)
    (hreg : ∀ t id, Event.register t id ∈ es → ¬ F (familyOf t)) (U : Users) (env : Env) :
    Outcome.ofResult ((World.after P es).evaluateArith P U env .plain s d) = evaluateArith env s d := by
  have hw : Meets F d e.node := by
    refine arith_within e (fun f hf v hv => ?_) hi hadd
    obtain ⟨ks, hn⟩ := isName_names (names_of_valid e h.valid f hf)
    exact among_lookup hn (hd f hf) v hv
  rw [evaluateArith, h.node none, World.evaluateArith, World.parse, node_parsed hP (h.node none), ok_bind,
    (within_arith (own_on P he hreg U) env d _ hw).1 0]
  rfl

/-- Likewise for arithmetic, whatever is registered for truth values, texts and versions. -/
example (P : Request → Result Node) (hP : IsBoolParser P) (U : Users) (env : Env) :
    Outcome.ofResult ((World.after P [.construct .arithEvaluator, .register .string 7, .register .boolean 2,
        .register .version 3]).evaluateArith P U env .plain j!"x / y" [(['x'], .int 7), (['y'], .int 2)]) =
      evaluateArith env j!"x / y" [(['x'], .int 7), (['y'], .int 2)] := by
  refine C83_arithmetic (e := .op .div (.field ['x']) (.field ['y'])) (writesArith_of (by krfl)) (fun φ => φ = .number)
    ?_ ?_ (fun _ => .inl fun _ h => h) P hP (.inl (by simp)) ?_ U env
  · intro f hf ks v hn hr
    simp only [Arith.fields, List.cons_append, List.nil_append, List.mem_cons, List.not_mem_nil, or_false] at hf
    have hr := (lookup_some hn _ v).mpr hr
    rcases hf with rfl | rfl
    · rw [show getValueFromMap _ _ = .ok (some (.int 7)) by krfl] at hr; cases hr; exact ⟨rfl, by simp [elementsOf]⟩
    · rw [show getValueFromMap _ _ = .ok (some (.int 2)) by krfl] at hr; cases hr; exact ⟨rfl, by simp [elementsOf]⟩
  · intro φ h
    simp [Arith.Involves] at h
    exact h
  · rintro t id h
    simp at h
    rcases h with h | h | h <;> rw [h.1] <;> decide

/-! ### Single operations -/

/-- **C83**, one operation on two numbers, with one type replaced that neither of them has: if it is the type the
operator calculates with, the operation fails with a `ClassCastException`; otherwise nothing changes. -/
theorem C83_operator {s : JStr} {o : ArithOp} {x y : JStr} (h : WritesArith s (.op o (.field x) (.field y)))
    {kx ky : List JStr} (hx : Names x kx) (hy : Names y ky) {d : Data} {v w : Value} (hv : Reaches d kx v)
    (hw : Reaches d ky w) {tv tw : DataType} (htv : numberType v = some tv) (htw : numberType w = some tw)
    (hok : Computable o tv tw) (P : Request → Result Node) (hP : IsBoolParser P) {t : DataType} {id : Nat} {W : World}
    (hW : Replaced P t id W) (h1 : tv ≠ t) (h2 : tw ≠ t) (U : Users) (env : Env) :
    Outcome.ofResult (W.evaluateArith P U env .plain s d) =
      if worksIn o tv tw = t then .failure .classCast else evaluateArith env s d := by
  obtain ⟨e1, i1, n1⟩ := numberType_type htv
  obtain ⟨e2, i2, n2⟩ := numberType_type htw
  have rv : requireField (some x) d = .ok v := by
    unfold requireField; rw [show lookupField (some x) d = .ok (some v) from (lookup_some hx d v).mpr hv]; rfl
  have rw' : requireField (some y) d = .ok w := by
    unfold requireField; rw [show lookupField (some y) d = .ok (some w) from (lookup_some hy d w).mpr hw]; rfl
  have hon := replaced_on hW U
  rw [evaluateArith, h.node none, World.evaluateArith, World.parse, node_parsed hP (h.node none), ok_bind]
  simp only [Outcome.andThen, Arith.node, evalArith, rv, rw', ok_bind, e1, e2]
  have hL : ∀ r, Refines (arithBinaryL (W.live U) env o v tv w tw) r →
      outcomeAt (evalArithL (W.live U) env d (.arith o (.field (some x)) (.field (some y)))) 0 = r := by
    intro r hr
    have : Refines (evalArithL (W.live U) env d (.arith o (.field (some x)) (.field (some y)))) r := by
      simp only [evalArithL, rv, rw']
      exact refines_bind_ok (refines_lift _) (refines_bind_ok (refines_lift _) (by rw [e1, e2]; exact hr))
    exact this 0
  by_cases hc : worksIn o tv tw = t
  · rw [if_pos hc]
    rw [hL (.error .classCast)]
    · rfl
    have a1 : o.allows tv = true := by
      rcases n1 with rfl | rfl | rfl <;> cases o <;> first | rfl | exact absurd rfl (hok rfl).1
    have a2 : o.allows tw = true := by
      rcases n2 with rfl | rfl | rfl <;> cases o <;> first | rfl | exact absurd rfl (hok rfl).2
    unfold arithBinaryL
    refine refines_bind_ok (on_needOperator hon _) ?_
    rw [a1]
    refine refines_bind_ok (a := true) (by rw [← i1]; exact on_isValid hon h1 v) ?_
    rw [a2]
    have hr : Refines (rightValidL (W.live U) tw w) (.ok true) := by
      have := on_rightValid hon h2 w
      have e : rightValid tw w = .ok true := by cases w <;> first | rfl | exact i2
      rw [e] at this; exact this
    refine refines_bind_ok hr ?_
    refine refines_bind_ok (on_needOperator hon _) ?_
    rw [evalArithOpL, fetches_worksIn n1 n2, hc]
    have : Refines (castObj (W.live U) t) (.error .classCast) :=
      refines_bind_ok (reads fun _ => replaced_type hW) (refines_lift _)
    exact refines_bind_of (r := .error .classCast) (g := fun _ => .ok .null) this fun a ha => by cases ha
  · rw [if_neg hc, hL _ (on_arithBinary hon env o v h1 w h2 fun t' ht' => ?_)]
    rw [fetches_worksIn n1 n2] at ht'
    cases ht'
    exact hc

/-- A program with its own LONG type can subtract its integers, but not add them. -/
example (P : Request → Result Node) (hP : IsBoolParser P) (U : Users) (env : Env) :
    let W := World.after P [.construct .arithEvaluator, .register .long 7]
    let d : Data := [(['x'], .int 7), (['y'], .int 2)]
    Outcome.ofResult (W.evaluateArith P U env .plain j!"x + y" d) = .failure .classCast ∧
    Outcome.ofResult (W.evaluateArith P U env .plain j!"x - y" d) = .success (.int 5) := by
  intro W d
  have hW : Replaced P .long 7 W := ⟨[.construct .arithEvaluator], [], by intro t id h; simp at h, .inl (by simp),
    by simp, rfl⟩
  have hx : Names ['x'] [['x']] := ⟨⟨by simp, by decide, by decide⟩, 0, rfl⟩
  have hy : Names ['y'] [['y']] := ⟨⟨by simp, by decide, by decide⟩, 0, rfl⟩
  have rx : Reaches d [['x']] (.int 7) := (lookup_some hx d _).mp (by krfl)
  have ry : Reaches d [['y']] (.int 2) := (lookup_some hy d _).mp (by krfl)
  constructor
  · rw [C83_operator (o := .add) (writesArith_of (by krfl)) hx hy rx ry rfl rfl (by intro h; cases h) P hP hW (by decide)
      (by decide) U env]
    rfl
  · rw [C83_operator (o := .sub) (writesArith_of (by krfl)) hx hy rx ry rfl rfl (by intro h; cases h) P hP hW (by decide)
      (by decide) U env]
    krfl

/-- **C83**, comparing two numbers: a replaced type that neither of them has makes no difference. -/
theorem C83_comparison {s : JStr} {o : CmpOp} {x y : JStr} (h : Writes s (.cmp o (.field x) (.field y)))
    {kx ky : List JStr} (hx : Names x kx) (hy : Names y ky) {d : Data} {v w : Value} (hv : Reaches d kx v)
    (hw : Reaches d ky w) {tv tw : DataType} (htv : numberType v = some tv) (htw : numberType w = some tw)
    (P : Request → Result Node) (hP : IsBoolParser P) {t : DataType} {id : Nat} {W : World}
    (hW : Replaced P t id W) (h1 : tv ≠ t) (h2 : tw ≠ t) (U : Users) (env : Env) :
    Outcome.ofResult (W.evaluate P U env .plain ⟨s, none⟩ d) = evaluate env s d none := by
  obtain ⟨e1, -, -⟩ := numberType_type htv
  obtain ⟨e2, -, -⟩ := numberType_type htw
  have rv : lookupField (some x) d = .ok (some v) := (lookup_some hx d v).mpr hv
  have rw' : lookupField (some y) d = .ok (some w) := (lookup_some hy d w).mpr hw
  have hon := replaced_on hW U
  have hnull : isNullCheck o (.field (some x)) (.field (some y)) = .ok false := by
    refine plain_check fun ho => ?_
    have := h.valid.2.2 ho
    exact ⟨by rw [Node.isNullField]; rw [Cond.isNullWord] at this; rw [this.1],
      by rw [Node.isNullField]; have := this.2; rw [Cond.isNullWord] at this; rw [this]⟩
  rw [evaluate, h.node none, World.evaluate, World.parse, node_parsed hP (h.node none), ok_bind]
  have : Refines (evalBoolL (W.live U) env d (Cond.node none (.cmp o (.field x) (.field y))))
      (logicalCmp o v tv w tw) := by
    simp only [Cond.node, Arith.node, evalBoolL]
    refine refines_bind_ok (a := some v) (by simp only [operandValueL, rv]; exact refines_lift _) ?_
    refine refines_bind_ok (a := false) (by rw [hnull]; exact refines_lift _) ?_
    refine refines_bind_ok (a := v) (refines_pure _) ?_
    refine refines_bind_ok (a := w) ?_ (by rw [e1, e2]; exact on_logicalCmp hon o v h1 w h2)
    exact refines_bind_ok (a := some w) (by simp only [operandValueL, rw']; exact refines_lift _) (refines_pure _)
  rw [this 0]
  simp only [Outcome.andThen, Cond.node, Arith.node, evalBool, evalComparison, operandValue, rv, rw', hnull, ok_bind]
  simp only [Bool.false_eq_true, if_false]
  show _ = Outcome.ofResult (logicalCmp o v (getDataType v) w (getDataType w))
  rw [e1, e2]

/-- A program with its own LONG type compares its integers as before. -/
example (P : Request → Result Node) (hP : IsBoolParser P) (U : Users) (env : Env) :
    Outcome.ofResult ((World.after P [.construct .boolEvaluator, .register .long 7]).evaluate P U env .plain
      ⟨j!"x > y", none⟩ [(['x'], .int 7), (['y'], .int 2)]) = .success true := by
  have hx : Names ['x'] [['x']] := ⟨⟨by simp, by decide, by decide⟩, 0, rfl⟩
  have hy : Names ['y'] [['y']] := ⟨⟨by simp, by decide, by decide⟩, 0, rfl⟩
  have hW : Replaced P .long 7 (World.after P [.construct .boolEvaluator, .register .long 7]) :=
    ⟨[.construct .boolEvaluator], [], by intro t id h; simp at h, .inr (by simp), by simp, rfl⟩
  rw [C83_comparison (o := .gt) (writes_of (by krfl)) hx hy ((lookup_some hx _ (.int 7)).mp (by krfl))
    ((lookup_some hy _ (.int 2)).mp (by krfl)) rfl rfl P hP hW (by decide) (by decide) U env]
  krfl

/-- **C83**, one function on two or more numbers, with one type replaced that none of them has: if it is the type the
function calculates with, the call fails with a `ClassCastException`; otherwise nothing changes. -/
theorem C83_function {s : JStr} {f : FuncType} {xs : List JStr} (h : WritesArith s (.call f (xs.map .field)))
    {d : Data} {vs : List Value} (hv : List.Forall₂ (fun x v => ∃ ks, Names x ks ∧ Reaches d ks v) xs vs)
    {ts : List DataType} (ht : List.Forall₂ (fun v t => numberType v = some t) vs ts) (hlen : 2 ≤ xs.length)
    (P : Request → Result Node) (hP : IsBoolParser P) {t : DataType} {id : Nat} {W : World}
    (hW : Replaced P t id W) (hne : t ∉ ts) (U : Users) (env : Env) :
    Outcome.ofResult (W.evaluateArith P U env .plain s d) =
      if functionWorksIn f ts = some t then .failure .classCast else evaluateArith env s d := by
  have hon := replaced_on hW U
  obtain ⟨hL, hE⟩ := fields_values hv (W.live U) env
  obtain ⟨hts, hl, hval⟩ := numbers_flat ht
  have hmem : ∀ x ∈ flattenItems vs, x.2 ≠ t := fun x hx e => hne (by rw [← hts, ← e]; exact List.mem_map_of_mem hx)
  rw [evaluateArith, h.node none, World.evaluateArith, World.parse, node_parsed hP (h.node none), ok_bind]
  simp only [Outcome.andThen, Arith.node, evalArith, hE, ok_bind]
  have key : ∀ r, Refines (callFnL (W.live U) env f (flattenItems vs)) r →
      outcomeAt (evalArithL (W.live U) env d (.func f (Arith.nodes (xs.map .field)))) 0 = r := by
    intro r hr
    have : Refines (evalArithL (W.live U) env d (.func f (Arith.nodes (xs.map .field)))) r := by
      simp only [evalArithL]
      exact refines_bind_ok hL hr
    exact this 0
  by_cases hc : functionWorksIn f ts = some t
  · rw [if_pos hc, key (.error .classCast)]
    · rfl
    have h2 : 1 < (flattenItems vs).length := by rw [hl, ← hv.length_eq]; omega
    have hnum : ∀ x ∈ flattenItems vs, x.2 = .integer ∨ x.2 = .long ∨ x.2 = .decimal := by
      intro x hx
      exact numbers_types ht (by rw [← hts]; exact List.mem_map_of_mem hx)
    have hmany : f.allowsMany = true := by cases f <;> first | rfl | cases hc
    have hall : (flattenItems vs).all (fun x => f.allows x.2) = true := by
      rw [List.all_eq_true]
      intro x hx
      rcases hnum x hx with e | e | e <;> rw [e] <;> cases f <;> first | rfl | cases hc
    unfold callFnL
    refine refines_bind_ok (reads fun k => hon.function k f) ?_
    rw [if_neg (by intro e; rw [List.isEmpty_iff] at e; rw [e] at h2; simp at h2)]
    simp only [h2, if_true, hmany, hall, Bool.not_true, Bool.false_eq_true, if_false]
    have hvv := on_validateItems hon (flattenItems vs) hmem
    rw [hval] at hvv
    refine refines_bind_ok hvv ?_
    have hcast : Refines (castObj (W.live U) t) (.error .classCast) :=
      refines_bind_ok (reads fun _ => replaced_type hW) (refines_lift _)
    have hfetch : Refines (fetch (W.live U) (f.fetches (flattenItems vs)) >>= fun _ => lift (evalFn env f (flattenItems vs)))
        (.error .classCast) := by
      rw [functionWorksIn_fetches, hts, hc]
      exact refines_bind_of (r := .error .classCast) (g := fun _ => .ok .null) hcast fun a ha => by cases ha
    cases f
    case int => cases hc
    case mean =>
      exact refines_bind_ok (show Refines (needFunction (W.live U) .avg) (.ok (some .builtin)) from
        reads fun k => hon.function k _) hfetch
    all_goals exact hfetch
  · rw [if_neg hc, key _ (on_callFn hon env f _ hmem fun t' ht' => ?_)]
    rintro rfl
    rw [functionWorksIn_fetches, hts] at ht'
    exact hc ht'

/-- A program with its own DECIMAL type has no MEDIAN of integers, but their sum. -/
example (P : Request → Result Node) (hP : IsBoolParser P) (U : Users) (env : Env) :
    let W := World.after P [.construct .arithEvaluator, .register .decimal 7]
    let d : Data := [(['x'], .int 7), (['y'], .int 2)]
    Outcome.ofResult (W.evaluateArith P U env .plain j!"median(x, y)" d) = .failure .classCast ∧
    Outcome.ofResult (W.evaluateArith P U env .plain j!"sum(x, y)" d) = .success (.int 9) := by
  intro W d
  have hW : Replaced P .decimal 7 W := ⟨[.construct .arithEvaluator], [], by intro t id h; simp at h, .inl (by simp),
    by simp, rfl⟩
  have hx : Names ['x'] [['x']] := ⟨⟨by simp, by decide, by decide⟩, 0, rfl⟩
  have hy : Names ['y'] [['y']] := ⟨⟨by simp, by decide, by decide⟩, 0, rfl⟩
  have hv : List.Forall₂ (fun x v => ∃ ks, Names x ks ∧ Reaches d ks v) [['x'], ['y']] [.int 7, .int 2] :=
    .cons ⟨_, hx, (lookup_some hx d _).mp (by krfl)⟩ (.cons ⟨_, hy, (lookup_some hy d _).mp (by krfl)⟩ .nil)
  have ht : List.Forall₂ (fun v t => numberType v = some t) [.int 7, .int 2] [.integer, .integer] :=
    .cons rfl (.cons rfl .nil)
  constructor
  · rw [C83_function (f := .median) (writesArith_of (by krfl)) hv ht (by decide) P hP hW (by decide) U env]
    rfl
  · rw [C83_function (f := .sum) (writesArith_of (by krfl)) hv ht (by decide) P hP hW (by decide) U env]
    krfl

end BoolParser
