import Verif.Spec.HandMade
import Verif.Lemmas.NullArgs
/-!
# Lemmas about nodes made by hand
-/

namespace BoolParser

open Spec

/-! ### Nodes of the library's parser -/

theorem isArithBase_of (n : Node) : (HNode.of n).isArithBase = n.isArithBase := by
  cases n <;> simp only [HNode.of, HNode.isArithBase, Node.isArithBase]

theorem isNullField_of (n : Node) : (HNode.of n).isNullField = n.isNullField := by
  cases n with
  | field f => cases f <;> simp only [HNode.of, HNode.isNullField, Node.isNullField]
  | _ => simp only [HNode.of, HNode.isNullField, Node.isNullField]

theorem isNullCheck_of (op : CmpOp) (l r : Node) :
    isNullCheckHand (some (.cmp op)) (HNode.of l) (HNode.of r) = isNullCheck op l r := by
  simp only [isNullCheckHand, isNullCheck, isNullField_of]
  cases op <;> rfl

mutual
theorem evalArithHand_of (env : Env) (d : Data) : (n : Node) → evalArithHand env d (HNode.of n) = evalArith env d n
  | .arith op l r => by
    simp only [HNode.of, evalArithHand, evalArith, evalArithHand_of env d l, evalArithHand_of env d r, arithTwo]
  | .neg l => by simp only [HNode.of, evalArithHand, evalArith, evalArithHand_of env d l]
  | .func f items => by
    simp only [HNode.of, evalArithHand, evalArithListHand, evalArith, evalArithAllHand_of env d items, callFnHand]
  | .unary _ _ => by simp only [HNode.of, evalArithHand, evalArith]
  | .field _ => by simp only [HNode.of, evalArithHand, evalArith]
  | .cmp _ _ _ _ => by simp only [HNode.of, evalArithHand, evalArith]
  | .range _ _ _ _ _ => by simp only [HNode.of, evalArithHand, evalArith]
  | .inn _ _ => by simp only [HNode.of, evalArithHand, evalArith]
  | .array _ _ _ => by simp only [HNode.of, evalArithHand, evalArith]
  | .and_ _ _ => by simp only [HNode.of, evalArithHand, evalArith]
  | .or_ _ _ => by simp only [HNode.of, evalArithHand, evalArith]
  | .not_ _ => by simp only [HNode.of, evalArithHand, evalArith]
theorem evalArithAllHand_of (env : Env) (d : Data) : (ns : List Node) →
    evalArithAllHand env d (HNode.ofAll ns) = evalArithAll env d ns
  | [] => by simp only [HNode.ofAll, evalArithAllHand, evalArithAll]
  | n :: ns => by
    simp only [HNode.ofAll, evalArithAllHand, evalArithAll, evalArithHand_of env d n, evalArithAllHand_of env d ns]
end

theorem operandValueHand_of (env : Env) (d : Data) (n : Node) (b : Result Bool) :
    operandValueHand env d (HNode.of n) b = operandValue env d n b := by
  have ha := evalArithHand_of env d n
  cases n <;> simp only [HNode.of] at ha <;>
    simp only [HNode.of, operandValueHand, operandValue, HNode.isArithBase, Node.isArithBase, ha] <;> try rfl

theorem itemValueHand_of (env : Env) (d : Data) (n : Node) (b : Result Bool) :
    itemValueHand env d (HNode.of n) b = itemValue env d n b := by
  simp only [itemValueHand, itemValue, isArithBase_of, evalArithHand_of]

theorem evalComparisonHand_of (op : CmpOp) (l r : Node) (lv rv : Result (Option Value)) :
    evalComparisonHand (some (.cmp op)) (HNode.of l) (HNode.of r) lv rv = evalComparison op l r lv rv := by
  simp only [evalComparisonHand, evalComparison, isNullCheck_of, logicalOne]
  rfl

mutual
theorem evalBoolHand_of (env : Env) (d : Data) : (n : Node) → evalBoolHand env d (HNode.of n) = evalBool env d n
  | .cmp l r op _ => by
    simp only [HNode.of, evalBoolHand, evalBool, evalBoolHand_of env d l, evalBoolHand_of env d r, operandValueHand_of,
      evalComparisonHand_of]
  | .range _ _ _ _ _ => by simp only [HNode.of, evalBoolHand, evalBool, evalRangeHand, evalRange, logicalBound]
  | .inn _ items => by simp only [HNode.of, evalBoolHand, evalItemListHand, evalBool, evalItemsHand_of env d items]
  | .array _ _ items => by
    simp only [HNode.of, evalBoolHand, evalItemListHand, evalBool, evalItemsHand_of env d items, logicalMany]
  | .unary _ _ => by simp only [HNode.of, evalBoolHand, evalBool, evalUnaryHand]
  | .and_ l r => by simp only [HNode.of, evalBoolHand, evalBool, evalBoolHand_of env d l, evalBoolHand_of env d r]
  | .or_ l r => by simp only [HNode.of, evalBoolHand, evalBool, evalBoolHand_of env d l, evalBoolHand_of env d r]
  | .not_ l => by simp only [HNode.of, evalBoolHand, evalBool, evalBoolHand_of env d l]
  | .field _ => by simp only [HNode.of, evalBoolHand, evalBool]
  | .arith _ _ _ => by simp only [HNode.of, evalBoolHand, evalBool]
  | .neg _ => by simp only [HNode.of, evalBoolHand, evalBool]
  | .func _ _ => by simp only [HNode.of, evalBoolHand, evalBool]
theorem evalItemsHand_of (env : Env) (d : Data) : (ns : List Node) → evalItemsHand env d (HNode.ofAll ns) = evalItems env d ns
  | [] => by simp only [HNode.ofAll, evalItemsHand, evalItems]
  | n :: ns => by
    simp only [HNode.ofAll, evalItemsHand, evalItems, evalBoolHand_of env d n, evalItemsHand_of env d ns, itemValueHand_of]
end

/-! ### What is not looked at -/

theorem isArithBase_strip (n : HNode) : (strip n).isArithBase = n.isArithBase := by
  cases n <;> simp only [strip, HNode.isArithBase]

theorem isNullField_strip (n : HNode) : (strip n).isNullField = n.isNullField := by
  cases n with
  | field f => cases f <;> simp only [strip]
  | _ => simp only [strip, HNode.isNullField]

mutual
theorem evalArithHand_strip (env : Env) (d : Data) : (n : HNode) → evalArithHand env d (strip n) = evalArithHand env d n
  | .arith l r op => by
    by_cases h : op = some .unary
    · subst h
      simp only [strip, evalArithHand, evalArithHand_strip env d l]
    · simp only [strip, evalArithHand, evalArithHand_strip env d l, if_neg h, evalArithHand_strip env d r]
  | .func f items => by simp only [strip, evalArithHand, evalArithListHand_strip env d items]
  | .unary _ _ => by simp only [strip]
  | .field _ => by simp only [strip]
  | .cmp _ _ _ _ => by simp only [strip, evalArithHand]
  | .range _ _ _ _ _ => by simp only [strip]
  | .inn _ _ => by simp only [strip, evalArithHand]
  | .array _ _ _ => by simp only [strip, evalArithHand]
  | .bool _ _ _ => by simp only [strip, evalArithHand]
  | .null => by simp only [strip]
  | .foreign _ _ => by simp only [strip]
theorem evalArithListHand_strip (env : Env) (d : Data) : (ns : Option (List HNode)) →
    evalArithListHand env d (stripList ns) = evalArithListHand env d ns
  | none => by simp only [stripList]
  | some ns => by simp only [stripList, evalArithListHand, evalArithAllHand_strip env d ns]
theorem evalArithAllHand_strip (env : Env) (d : Data) : (ns : List HNode) →
    evalArithAllHand env d (stripAll ns) = evalArithAllHand env d ns
  | [] => by simp only [stripAll]
  | n :: ns => by
    simp only [stripAll, evalArithAllHand, evalArithHand_strip env d n, evalArithAllHand_strip env d ns]
end

theorem operandValueHand_strip (env : Env) (d : Data) (n : HNode) (b : Result Bool) :
    operandValueHand env d (strip n) b = operandValueHand env d n b := by
  have ha := evalArithHand_strip env d n
  cases n <;> simp only [strip] at ha ⊢ <;> simp only [operandValueHand, HNode.isArithBase, ha] <;> try rfl

theorem evalComparisonHand_strip (op : Option AnyOp) (l r : HNode) (lv rv : Result (Option Value)) :
    evalComparisonHand op (strip l) (strip r) lv rv = evalComparisonHand op l r lv rv := by
  simp only [evalComparisonHand, isNullCheckHand, isNullField_strip]

mutual
theorem evalBoolHand_strip (env : Env) (d : Data) : (n : HNode) → evalBoolHand env d (strip n) = evalBoolHand env d n
  | .cmp l r op _ => by
    simp only [strip, evalBoolHand, evalBoolHand_strip env d l, evalBoolHand_strip env d r, operandValueHand_strip,
      evalComparisonHand_strip]
  | .range _ _ _ _ _ => by simp only [strip]
  | .inn _ items => by simp only [strip, evalBoolHand, evalItemListHand_strip env d items]
  | .array _ _ items => by simp only [strip, evalBoolHand, evalItemListHand_strip env d items]
  | .unary _ _ => by simp only [strip]
  | .bool l r op => by
    by_cases h : op = some .not
    · subst h
      simp only [strip, evalBoolHand, evalBoolHand_strip env d l]
    · simp only [strip, evalBoolHand, evalBoolHand_strip env d l, if_neg h, evalBoolHand_strip env d r]
  | .field _ => by simp only [strip]
  | .arith _ _ _ => by simp only [strip, evalBoolHand]
  | .func _ _ => by simp only [strip, evalBoolHand]
  | .null => by simp only [strip]
  | .foreign _ _ => by simp only [strip]
theorem evalItemListHand_strip (env : Env) (d : Data) : (ns : Option (List HNode)) →
    evalItemListHand env d (stripList ns) = evalItemListHand env d ns
  | none => by simp only [stripList]
  | some ns => by simp only [stripList, evalItemListHand, evalItemsHand_strip env d ns]
theorem evalItemsHand_strip (env : Env) (d : Data) : (ns : List HNode) → evalItemsHand env d (stripAll ns) = evalItemsHand env d ns
  | [] => by simp only [stripAll]
  | n :: ns => by
    simp only [stripAll, evalItemsHand, itemValueHand, isArithBase_strip, evalArithHand_strip, evalBoolHand_strip env d n,
      evalItemsHand_strip env d ns]
end

/-! ### Complete nodes are nodes of the other claims -/

theorem strip_arith {n m : HNode} (h : strip n = strip m) (env : Env) (d : Data) : evalArithHand env d n = evalArithHand env d m := by
  rw [← evalArithHand_strip env d n, h, evalArithHand_strip]

theorem strip_bool {n m : HNode} (h : strip n = strip m) (env : Env) (d : Data) : evalBoolHand env d n = evalBoolHand env d m := by
  rw [← evalBoolHand_strip env d n, h, evalBoolHand_strip]

mutual
theorem complete_of : {n : HNode} → Complete n → ∃ m : Node, strip n = strip (HNode.of m)
  | _, .cmp op _ hl hr => by
    obtain ⟨l, el⟩ := complete_of hl
    obtain ⟨r, er⟩ := complete_of hr
    exact ⟨.cmp l r op .string, by simp only [strip, HNode.of, el, er]⟩
  | _, .range f lo hi a b => ⟨.range f lo hi a b, by simp only [strip, HNode.of]⟩
  | _, .inn f h => by
    obtain ⟨ms, e⟩ := complete_ofAll h
    exact ⟨.inn f ms, by simp only [strip, HNode.of, stripList, e]⟩
  | _, .array f op h => by
    obtain ⟨ms, e⟩ := complete_ofAll h
    exact ⟨.array f op ms, by simp only [strip, HNode.of, stripList, e]⟩
  | _, .unary dt v => ⟨.unary dt v, by simp only [strip, HNode.of]⟩
  | _, .and hl hr => by
    obtain ⟨l, el⟩ := complete_of hl
    obtain ⟨r, er⟩ := complete_of hr
    exact ⟨.and_ l r, by simp only [strip, HNode.of, el, er]⟩
  | _, .or hl hr => by
    obtain ⟨l, el⟩ := complete_of hl
    obtain ⟨r, er⟩ := complete_of hr
    exact ⟨.or_ l r, by simp only [strip, HNode.of, el, er]⟩
  | _, .not _ hl => by
    obtain ⟨l, el⟩ := complete_of hl
    exact ⟨.not_ l, by simp only [strip, HNode.of, el, if_true]⟩
  | _, .field f => ⟨.field f, by simp only [strip, HNode.of]⟩
  | _, .arith op hl hr => by
    obtain ⟨l, el⟩ := complete_of hl
    obtain ⟨r, er⟩ := complete_of hr
    exact ⟨.arith op l r, by simp only [strip, HNode.of, el, er]⟩
  | _, .neg _ hl => by
    obtain ⟨l, el⟩ := complete_of hl
    exact ⟨.neg l, by simp only [strip, HNode.of, el, if_true]⟩
  | _, .func f h => by
    obtain ⟨ms, e⟩ := complete_ofAll h
    exact ⟨.func f ms, by simp only [strip, HNode.of, stripList, e]⟩
theorem complete_ofAll : {ns : List HNode} → CompleteAll ns → ∃ ms : List Node, stripAll ns = stripAll (HNode.ofAll ms)
  | _, .nil => ⟨[], rfl⟩
  | _, .cons h hs => by
    obtain ⟨m, e⟩ := complete_of h
    obtain ⟨ms, es⟩ := complete_ofAll hs
    exact ⟨m :: ms, by simp only [HNode.ofAll, stripAll, e, es]⟩
end

mutual
theorem of_complete : (n : Node) → Complete (HNode.of n)
  | .cmp l r op _ => .cmp op _ (of_complete l) (of_complete r)
  | .range f lo hi a b => .range f lo hi a b
  | .inn f items => .inn f (ofAll_complete items)
  | .array f op items => .array f op (ofAll_complete items)
  | .unary dt v => .unary dt v
  | .and_ l r => .and (of_complete l) (of_complete r)
  | .or_ l r => .or (of_complete l) (of_complete r)
  | .not_ l => .not _ (of_complete l)
  | .field f => .field f
  | .arith op l r => .arith op (of_complete l) (of_complete r)
  | .neg l => .neg _ (of_complete l)
  | .func f items => .func f (ofAll_complete items)
theorem ofAll_complete : (ns : List Node) → CompleteAll (HNode.ofAll ns)
  | [] => .nil
  | n :: ns => .cons (of_complete n) (ofAll_complete ns)
end

/-! ### Nulls -/

theorem lookup_filled {f f' : Option JStr} (h : Filled f f') (d : Data) : NullOr (lookupField f d) (lookupField f' d) := by
  rcases h with rfl | rfl
  · exact .null
  · exact .same _

theorem require_filled {f f' : Option JStr} (h : Filled f f') (d : Data) : NullOr (requireField f d) (requireField f' d) :=
  (lookup_filled h d).bind fun _ => .same _

theorem callFn_filled {f f' : Option FuncType} (h : Filled f f') (env : Env) (ts : List Typed) :
    NullOr (callFnHand env f ts) (callFnHand env f' ts) := by
  rcases h with rfl | rfl
  · cases ts with
    | cons t ts => exact .null
    | nil =>
      cases f' with
      | none => exact .same _
      | some g => exact .same (.error .invalidExpression)
  · exact .same _

theorem foreignArith_filled {t t' : Option NodeType} (h : Filled t t') : NullOr (foreignArith t) (foreignArith t') := by
  rcases h with rfl | rfl
  · exact .null
  · exact .same _

theorem foreignBool_filled {t t' : Option NodeType} (h : Filled t t') : NullOr (foreignBool t) (foreignBool t') := by
  rcases h with rfl | rfl
  · exact .null
  · exact .same _

theorem arith_step {op op' : Option AnyOp} (ho : Filled op op') (env : Env) (a : Value) {b b' : Result Value}
    (hb : NullOr b b') :
    NullOr (match (generalizing := false) op with
      | none => throw .nullPointer
      | some .unary => arithNegate a (getDataType a)
      | some o => do
        let b ← b
        arithTwo env o a b)
     (match (generalizing := false) op' with
      | none => throw .nullPointer
      | some .unary => arithNegate a (getDataType a)
      | some o => do
        let b ← b'
        arithTwo env o a b) := by
  rcases ho with rfl | rfl
  · exact .null
  · cases op with
    | none => exact .same _
    | some o =>
      cases o with
      | unary => exact .same _
      | _ => exact hb.bind fun _ => .same _

mutual
theorem fill_arith (env : Env) (d : Data) : {n m : HNode} → Fill n m → NullOr (evalArithHand env d n) (evalArithHand env d m)
  | _, _, .same _ => .same _
  | _, _, .null _ => by rw [evalArithHand]; exact .null
  | _, _, .cmp _ _ _ _ _ _ => by simp only [evalArithHand]; exact .same _
  | _, _, .range _ _ _ _ _ => by simp only [evalArithHand]; exact .same _
  | _, _, .inn _ _ => by simp only [evalArithHand]; exact .same _
  | _, _, .array _ _ _ => by simp only [evalArithHand]; exact .same _
  | _, _, .unary _ _ => by simp only [evalArithHand]; exact .same _
  | _, _, .bool _ _ _ => by simp only [evalArithHand]; exact .same _
  | _, _, .field hf => by simp only [evalArithHand]; exact require_filled hf d
  | _, _, .arith hl hr ho => by
    simp only [evalArithHand]
    exact (fill_arith env d hl).bind fun a => arith_step ho env a (fill_arith env d hr)
  | _, _, .func hf hi => by
    simp only [evalArithHand]
    exact (fill_arithList env d hi).bind fun vs => callFn_filled hf env _
  | _, _, .foreign _ ht => by simp only [evalArithHand]; exact foreignArith_filled ht
theorem fill_arithList (env : Env) (d : Data) : {ns ms : Option (List HNode)} → FillList ns ms →
    NullOr (evalArithListHand env d ns) (evalArithListHand env d ms)
  | _, _, .null _ => by rw [evalArithListHand]; exact .null
  | _, _, .some h => by simp only [evalArithListHand]; exact fill_arithAll env d h
theorem fill_arithAll (env : Env) (d : Data) : {ns ms : List HNode} → FillAll ns ms →
    NullOr (evalArithAllHand env d ns) (evalArithAllHand env d ms)
  | _, _, .nil => .same _
  | _, _, .cons h hs => by
    simp only [evalArithAllHand]
    exact (fill_arith env d h).bind fun _ => (fill_arithAll env d hs).bind fun _ => .same _
end

theorem fill_operand (env : Env) (d : Data) {n m : HNode} (h : Fill n m) {b b' : Result Bool} (hb : NullOr b b') :
    NullOr (operandValueHand env d n b) (operandValueHand env d m b') := by
  have ha := fill_arith env d h
  have gen : ∀ n : HNode, ∀ b b', NullOr b b' → NullOr (operandValueHand env d n b) (operandValueHand env d n b') := by
    intro n b b' hb
    unfold operandValueHand
    split
    all_goals first | exact .same _ | skip
    exact .ite (.same _) (hb.bind fun _ => .same _)
  have two : ∀ {α : Type} {x y : Result α} {k : α → Result (Option Value)}, NullOr x y → NullOr (x >>= k) (y >>= k) :=
    fun h => h.bind fun _ => .same _
  cases h with
  | same n => exact gen n _ _ hb
  | null m => exact .null
  | cmp => exact hb.bind fun _ => .same _
  | range => exact hb.bind fun _ => .same _
  | inn => exact hb.bind fun _ => .same _
  | array => exact hb.bind fun _ => .same _
  | unary => exact .same _
  | bool => exact hb.bind fun _ => .same _
  | field hf => exact lookup_filled hf d
  | arith => exact two ha
  | func => exact two ha
  | foreign a ht =>
    rcases ht with rfl | rfl
    · exact .null
    · exact gen _ _ _ hb

theorem fill_isArithBase {n m : HNode} (h : Fill n m) (hn : n ≠ .null) : n.isArithBase = m.isArithBase := by
  cases h with
  | null => exact absurd rfl hn
  | _ => rfl

theorem fill_item (env : Env) (d : Data) {n m : HNode} (h : Fill n m) {b b' : Result Bool} (hb : NullOr b b')
    (h0 : n = .null → b = .error .nullPointer) : NullOr (itemValueHand env d n b) (itemValueHand env d m b') := by
  by_cases hn : n = .null
  · rw [h0 hn, hn]; exact .null
  · unfold itemValueHand
    rw [fill_isArithBase h hn]
    exact .ite (fill_arith env d h) (hb.bind fun _ => .same _)

theorem not_namesNull {n : HNode} (h : ¬ NamesNull n) : n.isNullField = .ok false := by
  cases n with
  | field f =>
    cases f with
    | none => exact absurd trivial h
    | some f =>
      have : ¬ lower f = j!"null" := h
      simp only [HNode.isNullField, Except.ok.injEq, beq_eq_false_iff_ne, ne_eq]
      exact this
  | _ => rfl

theorem fill_isNullField {n m : HNode} (h : Fill n m) (hn : n = .null → ¬ NamesNull m) :
    NullOr n.isNullField m.isNullField := by
  cases h with
  | same n => exact .same _
  | null m => rw [not_namesNull (hn rfl)]; exact .same _
  | field hf =>
    rcases hf with rfl | rfl
    · exact .null
    · exact .same _
  | _ => exact .same _

theorem isNullCheckHand_eq {op : Option AnyOp} (h : Equality op) (l r : HNode) :
    isNullCheckHand op l r = r.isNullField >>= fun b => if b then pure true else l.isNullField := by
  rcases h with rfl | rfl <;> rfl

theorem isNullCheckHand_ne {op : Option AnyOp} (h : ¬ Equality op) (l r : HNode) : isNullCheckHand op l r = .ok false := by
  unfold isNullCheckHand
  rw [if_neg]
  intro h'
  apply h
  rw [Bool.or_eq_true, beq_iff_eq, beq_iff_eq] at h'
  exact h'

theorem fill_comparison {l l' r r' : HNode} {op op' : Option AnyOp} (hl : Fill l l') (hr : Fill r r')
    (ho : op = op' ∨ (op = none ∧ ¬ Equality op')) (hn : r = .null → Equality op' → ¬ NamesNull r')
    {lv lv' rv rv' : Result (Option Value)} (hlv : NullOr lv lv') (hrv : NullOr rv rv')
    (h0 : l = .null → lv = .error .nullPointer) :
    NullOr (evalComparisonHand op l r lv rv) (evalComparisonHand op' l' r' lv' rv') := by
  by_cases hln : l = .null
  · rw [h0 hln]; exact .null
  have hc : NullOr (isNullCheckHand op l r) (isNullCheckHand op' l' r') := by
    by_cases he : Equality op'
    · obtain rfl := ho.resolve_right fun h => h.2 he
      rw [isNullCheckHand_eq he, isNullCheckHand_eq he]
      exact (fill_isNullField hr fun h => hn h he).bind fun _ =>
        .ite (.same _) (fill_isNullField hl fun h => absurd h hln)
    · have : ¬ Equality op := by
        rcases ho with rfl | ⟨rfl, _⟩
        · exact he
        · rintro (h | h) <;> cases h
      rw [isNullCheckHand_ne he, isNullCheckHand_ne this]
      exact .same _
  have hop : ∀ a ta b tb, NullOr (logicalOne op a ta b tb) (logicalOne op' a ta b tb) := by
    intro a ta b tb
    rcases ho with rfl | ⟨rfl, _⟩
    · exact .same _
    · exact .null
  unfold evalComparisonHand
  refine hlv.bind fun lo => hc.bind fun c => NullOr.bind (.same _) fun a => NullOr.bind ?_ fun b => hop _ _ _ _
  exact .ite (.same _) (hrv.bind fun _ => .same _)

theorem fill_evalUnary {dt dt' : Option DataType} (h : Filled dt dt') (d : Data) (v : Value) :
    NullOr (evalUnaryHand d dt v) (evalUnaryHand d dt' v) := by
  rcases h with rfl | rfl
  · exact .null
  · exact .same _

theorem fill_logicalMany {op op' : Option AnyOp} (h : Filled op op') (v : Value) (t : DataType) (ts : List Typed) :
    NullOr (logicalMany op v t ts) (logicalMany op' v t ts) := by
  rcases h with rfl | rfl
  · exact .null
  · exact .same _

theorem bool_step {op op' : Option BoolOp} (ho : Filled op op') {a a' b b' : Result Bool} (ha : NullOr a a')
    (hb : NullOr b b') :
    NullOr (match (generalizing := false) op with
      | none => .error .nullPointer
      | some .and => do
        let x ← a
        if x then b else pure false
      | some .or => do
        let x ← a
        if x then pure true else b
      | some .not => do
        let x ← a
        pure (!x))
     (match (generalizing := false) op' with
      | none => .error .nullPointer
      | some .and => do
        let x ← a'
        if x then b' else pure false
      | some .or => do
        let x ← a'
        if x then pure true else b'
      | some .not => do
        let x ← a'
        pure (!x)) := by
  rcases ho with rfl | rfl
  · exact .null
  · cases op with
    | none => exact .same _
    | some o =>
      cases o with
      | and => exact ha.bind fun _ => .ite hb (.same _)
      | or => exact ha.bind fun _ => .ite (.same _) hb
      | not => exact ha.bind fun _ => .same _

theorem evalBoolHand_null (env : Env) (d : Data) {n : HNode} (h : n = .null) : evalBoolHand env d n = .error .nullPointer := by
  rw [h, evalBoolHand]

mutual
theorem fill_bool (env : Env) (d : Data) : {n m : HNode} → Fill n m → NullOr (evalBoolHand env d n) (evalBoolHand env d m)
  | _, _, .same _ => .same _
  | _, _, .null _ => by rw [evalBoolHand]; exact .null
  | _, _, .cmp _ _ hl hr ho hn => by
    simp only [evalBoolHand]
    refine fill_comparison hl hr ho hn (fill_operand env d hl (fill_bool env d hl)) (fill_operand env d hr (fill_bool env d hr)) ?_
    rintro rfl
    rfl
  | _, _, .range _ _ _ _ hf => by
    simp only [evalBoolHand]
    exact (require_filled hf d).bind fun _ => .same _
  | _, _, .inn hf hi => by
    simp only [evalBoolHand]
    exact (require_filled hf d).bind fun _ => (fill_itemList env d hi).bind fun _ => .same _
  | _, _, .array hf ho hi => by
    simp only [evalBoolHand]
    exact (require_filled hf d).bind fun _ => (fill_itemList env d hi).bind fun _ =>
      NullOr.ite (.same _) (fill_logicalMany ho _ _ _)
  | _, _, .unary v ht => by simp only [evalBoolHand]; exact fill_evalUnary ht d v
  | _, _, .bool hl hr ho => by
    simp only [evalBoolHand]
    exact bool_step ho (fill_bool env d hl) (fill_bool env d hr)
  | _, _, .field _ => by simp only [evalBoolHand]; exact .same _
  | _, _, .arith _ _ _ => by simp only [evalBoolHand]; exact .same _
  | _, _, .func _ _ => by simp only [evalBoolHand]; exact .same _
  | _, _, .foreign _ ht => by simp only [evalBoolHand]; exact foreignBool_filled ht
theorem fill_itemList (env : Env) (d : Data) : {ns ms : Option (List HNode)} → FillList ns ms →
    NullOr (evalItemListHand env d ns) (evalItemListHand env d ms)
  | _, _, .null _ => by rw [evalItemListHand]; exact .null
  | _, _, .some h => by simp only [evalItemListHand]; exact fill_items env d h
theorem fill_items (env : Env) (d : Data) : {ns ms : List HNode} → FillAll ns ms →
    NullOr (evalItemsHand env d ns) (evalItemsHand env d ms)
  | _, _, .nil => .same _
  | _, _, .cons h hs => by
    simp only [evalItemsHand]
    exact (fill_item env d h (fill_bool env d h) (evalBoolHand_null env d)).bind fun _ =>
      (fill_items env d hs).bind fun _ => .same _
end

/-- A comparison with IN that has a result: both operands have values, and any operator without a test for null gets them. -/
theorem comparisonHand_inn {l r : HNode} {lv rv : Result (Option Value)} {b : Bool}
    (h : evalComparisonHand (some .inn) l r lv rv = .ok b) :
    ∃ a c, ∀ op, isNullCheckHand op l r = .ok false →
      evalComparisonHand op l r lv rv = logicalOne op a (getDataType a) c (getDataType c) := by
  unfold evalComparisonHand at h
  obtain ⟨lo, e1, h⟩ := bind_ok_inv h
  obtain ⟨nc, e2, h⟩ := bind_ok_inv h
  have hn : nc = false := (Except.ok.inj e2).symm
  subst hn
  obtain ⟨a, e3, h⟩ := bind_ok_inv h
  obtain ⟨c, e4, h⟩ := bind_ok_inv h
  simp only [Bool.false_eq_true, if_false] at e3 e4
  obtain ⟨ro, e5, e4⟩ := bind_ok_inv e4
  cases lo with
  | none => cases e3
  | some x =>
    cases ro with
    | none => cases e4
    | some y =>
      refine ⟨x, y, fun op hop => ?_⟩
      subst e1 e5
      unfold evalComparisonHand
      rw [ok_bind, hop]
      rfl

end BoolParser
