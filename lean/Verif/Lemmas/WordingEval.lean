import Verif.Lemmas.WordingTests
import Verif.Lemmas.Meaning
import Verif.Props.Message
/-!
# Messages of evaluations (for C101)
-/

namespace BoolParser
open Spec

/-! ### Forgetting the messages -/

theorem requireFieldX_same (f : Option JStr) (d : Data) : untold (requireFieldX f d) = requireField f d := by
  unfold requireFieldX requireField
  rw [untold_bind, untold_bare]
  cases lookupField f d with
  | error e => rfl
  | ok o => cases o <;> rfl

mutual
theorem evalArithX_same (env : Env) (d : Data) : (n : Node) → untold (evalArithX env d n) = evalArith env d n
  | .arith op l r => by
    rw [evalArithX, evalArith]
    simp only [untold_bind, evalArithX_same env d l, evalArithX_same env d r, arithBinaryX_same]
  | .neg l => by
    rw [evalArithX, evalArith]
    simp only [untold_bind, evalArithX_same env d l, arithNegateX_same]
  | .func f items => by
    rw [evalArithX, evalArith]
    simp only [untold_bind, evalArithAllX_same env d items, callFnX_same]
  | .unary _ v => by rw [evalArithX, evalArith]; rfl
  | .field f => by rw [evalArithX, evalArith, requireFieldX_same]
  | .cmp .. => by rw [evalArithX, evalArith] <;> first | rfl | (intros; contradiction)
  | .range .. => by rw [evalArithX, evalArith] <;> first | rfl | (intros; contradiction)
  | .inn .. => by rw [evalArithX, evalArith] <;> first | rfl | (intros; contradiction)
  | .array .. => by rw [evalArithX, evalArith] <;> first | rfl | (intros; contradiction)
  | .and_ .. => by rw [evalArithX, evalArith] <;> first | rfl | (intros; contradiction)
  | .or_ .. => by rw [evalArithX, evalArith] <;> first | rfl | (intros; contradiction)
  | .not_ .. => by rw [evalArithX, evalArith] <;> first | rfl | (intros; contradiction)
theorem evalArithAllX_same (env : Env) (d : Data) : (ns : List Node) →
    untold (evalArithAllX env d ns) = evalArithAll env d ns
  | [] => rfl
  | n :: ns => by
    rw [evalArithAllX, evalArithAll]
    simp only [untold_bind, evalArithX_same env d n, evalArithAllX_same env d ns]
    rfl
end

theorem operandValueX_same (env : Env) (d : Data) (n : Node) (b : Told Bool) :
    untold (operandValueX env d n b) = operandValue env d n (untold b) := by
  cases n <;> simp only [operandValueX, operandValue, untold_ite, untold_bind, untold_bare, evalArithX_same] <;> rfl

theorem leftX_same (nc : Bool) (l : Node) (lo : Option Value) : untold (leftX nc l lo) =
    (if nc then pure (lo.getD (.str j!"null"))
      else match lo with
        | some v => pure v
        | none => throw .dataNotFound : Result Value) := by
  cases nc <;> cases lo <;> first | rfl | (cases l <;> rfl)

theorem rightX_same (nc : Bool) (rv : Told (Option Value)) : untold (rightX nc rv) =
    (if nc then pure (.str j!"null")
      else do
        let ro ← untold rv
        match ro with
        | some v => pure v
        | none => throw .noSuchElement : Result Value) := by
  cases nc
  · cases rv with
    | error e => rfl
    | ok o => cases o <;> rfl
  · rfl

theorem evalComparisonX_same (op : CmpOp) (l r : Node) (lv rv : Told (Option Value)) :
    untold (evalComparisonX op l r lv rv) = evalComparison op l r (untold lv) (untold rv) := by
  unfold evalComparisonX evalComparison
  simp only [untold_bind, untold_bare, leftX_same, rightX_same, logicalCmpX_same]
  rfl

theorem evalRangeX_same (d : Data) (f : JStr) (lo hi : Value) (loT hiT : DataType) :
    untold (evalRangeX d f lo hi loT hiT) = evalRange d f lo hi loT hiT := by
  unfold evalRangeX evalRange
  simp only [untold_bind, requireFieldX_same, logicalCmpX_same]
  rfl

theorem evalUnaryX_same (d : Data) (dt : DataType) (v : Value) : untold (evalUnaryX d dt v) = evalUnary d dt v := by
  unfold evalUnaryX evalUnary
  split
  · cases v <;> rfl
  · simp only [untold_bind, untold_bare, requireFieldX_same]
    congr 1; funext k; congr 1; funext y
    cases y <;> rfl

theorem itemValueX_same (env : Env) (d : Data) (n : Node) (b : Told Bool) :
    untold (itemValueX env d n b) = itemValue env d n (untold b) := by
  unfold itemValueX itemValue
  simp only [untold_ite, untold_bind, evalArithX_same]
  rfl

mutual
theorem evalBoolX_same (env : Env) (d : Data) : (n : Node) → untold (evalBoolX env d n) = evalBool env d n
  | .cmp l r op t => by
    rw [evalBoolX, evalBool, evalComparisonX_same, operandValueX_same, operandValueX_same, evalBoolX_same env d l,
      evalBoolX_same env d r]
  | .range .. => by rw [evalBoolX, evalBool, evalRangeX_same]
  | .inn f items => by
    rw [evalBoolX, evalBool]
    simp only [untold_bind, requireFieldX_same, evalItemsX_same env d items, logicalInX_same]
  | .array f op items => by
    rw [evalBoolX, evalBool]
    simp only [untold_bind, requireFieldX_same, evalItemsX_same env d items, logicalArrayX_same, untold_ite]
    congr 1
  | .unary dt v => by rw [evalBoolX, evalBool, evalUnaryX_same]
  | .and_ l r => by
    rw [evalBoolX, evalBool]
    simp only [untold_bind, evalBoolX_same env d l, evalBoolX_same env d r, untold_ite]
    rfl
  | .or_ l r => by
    rw [evalBoolX, evalBool]
    simp only [untold_bind, evalBoolX_same env d l, evalBoolX_same env d r, untold_ite]
    rfl
  | .not_ l => by
    rw [evalBoolX, evalBool]
    simp only [untold_bind, evalBoolX_same env d l]
    rfl
  | .field _ => by rw [evalBoolX, evalBool]; rfl
  | .arith .. => by rw [evalBoolX, evalBool]; rfl
  | .neg _ => by rw [evalBoolX, evalBool]; rfl
  | .func .. => by rw [evalBoolX, evalBool]; rfl
theorem evalItemsX_same (env : Env) (d : Data) : (ns : List Node) → untold (evalItemsX env d ns) = evalItems env d ns
  | [] => by rw [evalItemsX, evalItems]; rfl
  | n :: ns => by
    rw [evalItemsX, evalItems]
    simp only [untold_bind, itemValueX_same, evalBoolX_same env d n, evalItemsX_same env d ns]
    rfl
end

variable {x : Exn} {t : JStr}

/-! ### Arithmetic -/

theorem requireFieldX_says (f : JStr) (d : Data) :
    SaysX (requireFieldX (some f) d) x t ↔ x = .dataNotFound ∧ Absent d f ∧ t = missingText f := by
  unfold requireFieldX
  rw [says_bare_bind, absent_iff]
  show (∃ a, getValueFromMap f d = .ok a ∧ _) ↔ _
  constructor
  · rintro ⟨o, h, h'⟩
    cases o with
    | some v => cases h'
    | none => cases h'; exact ⟨rfl, h, rfl⟩
  · rintro ⟨rfl, h, rfl⟩
    exact ⟨none, h, rfl⟩

theorem values_cons {env : Env} {d : Data} {e : Arith} {es : List Arith} {vs : List Value} :
    Arith.values env d (e :: es) = .ok vs ↔ ∃ v ws, vs = v :: ws ∧ e.value env d = .ok v ∧ Arith.values env d es = .ok ws := by
  rw [Arith.values]
  cases e.value env d with
  | error y => exact ⟨fun h => (by cases h), fun ⟨_, _, _, h, _⟩ => (by cases h)⟩
  | ok v =>
    cases Arith.values env d es with
    | error y => exact ⟨fun h => (by cases h), fun ⟨_, _, _, _, h⟩ => (by cases h)⟩
    | ok ws =>
      constructor
      · intro h; cases h; exact ⟨v, ws, rfl, rfl, rfl⟩
      · rintro ⟨_, _, rfl, h, h'⟩; cases h; cases h'; rfl

theorem item_nil {env : Env} {d : Data} : ¬ ItemComplains env d [] x t := by
  rintro ⟨before, e, after, vs, h, _⟩
  cases before <;> cases h

theorem item_cons {env : Env} {d : Data} {e : Arith} {es : List Arith} :
    ItemComplains env d (e :: es) x t ↔ e.Complains env d x t ∨ ∃ v, e.value env d = .ok v ∧ ItemComplains env d es x t := by
  constructor
  · rintro ⟨before, y, after, vs, h, hb, hy⟩
    cases before with
    | nil => cases h; exact .inl hy
    | cons b bs =>
      cases h
      obtain ⟨v, ws, rfl, h1, h2⟩ := values_cons.1 hb
      exact .inr ⟨v, h1, bs, y, after, ws, rfl, h2, hy⟩
  · rintro (h | ⟨v, hv, before, y, after, ws, rfl, hb, hy⟩)
    · exact ⟨[], e, es, [], rfl, rfl, h⟩
    · exact ⟨e :: before, y, after, v :: ws, rfl, values_cons.2 ⟨v, ws, rfl, hv, hb⟩, hy⟩

theorem flatten_typed (vs : List Value) : flattenItems vs = typed (vs.flatMap elements) := flattenItems_elements vs

mutual
theorem arithX_says (env : Env) (d : Data) (df : Option JStr) : (e : Arith) → e.Valid →
    (SaysX (evalArithX env d (nodeOf df e.tree)) x t ↔ e.Complains env d x t)
  | .field f, _ => by
    rw [Arith.tree, nodeOf_field, evalArithX, requireFieldX_says]
    constructor
    · rintro ⟨rfl, h, rfl⟩; exact .field h
    · intro h
      cases h with
      | field h => exact ⟨rfl, h, rfl⟩
  | .lit l, h => by
    rw [Arith.Valid] at h
    rw [Arith.tree, nodeOf_lit df h, evalArithX]
    exact ⟨fun h => (by cases h), fun h => (by cases h)⟩
  | .group e, h => by
    rw [Arith.Valid] at h
    rw [Arith.tree, nodeOf, arithX_says env d df e h]
    constructor
    · exact .group
    · intro h
      cases h with
      | group h => exact h
  | .op o l r, h => by
    rw [Arith.Valid] at h
    rw [Arith.tree, nodeOf, evalArithX]
    simp only [says_bind, evalArithX_same, arith_eval env d df l h.1, arith_eval env d df r h.2,
      arithX_says env d df l h.1, arithX_says env d df r h.2, arithBinaryX_says]
    constructor
    · rintro (h | ⟨a, ha, h | ⟨b, hb, rfl, h⟩⟩)
      · exact .left h
      · exact .right ha h
      · exact .op ha hb h
    · intro h
      cases h with
      | left h => exact .inl h
      | right ha h => exact .inr ⟨_, ha, .inl h⟩
      | op ha hb h => exact .inr ⟨_, ha, .inr ⟨_, hb, rfl, h⟩⟩
  | .neg e, h => by
    rw [Arith.Valid] at h
    rw [Arith.tree, nodeOf, evalArithX]
    simp only [says_bind, evalArithX_same, arith_eval env d df e h, arithX_says env d df e h, arithNegateX_says]
    constructor
    · rintro (h | ⟨a, ha, rfl, h⟩)
      · exact .operand h
      · exact .neg ha h
    · intro h
      cases h with
      | operand h => exact .inl h
      | neg ha h => exact .inr ⟨_, ha, rfl, h⟩
  | .call f args, h => by
    rw [Arith.Valid] at h
    rw [Arith.tree, nodeOf, evalArithX]
    simp only [says_bind, evalArithAllX_same, args_eval env d df args h.2, argsX_says env d df args h.2, flatten_typed,
      callFnX_says]
    constructor
    · rintro (⟨before, y, after, vs, rfl, hb, hy⟩ | ⟨vs, hv, h⟩)
      · exact .arg hb hy
      · exact .call ⟨vs, hv, rfl⟩ h
    · intro h
      cases h with
      | arg hb hy => exact .inl ⟨_, _, _, _, rfl, hb, hy⟩
      | call hi h =>
        obtain ⟨vs, hv, rfl⟩ := hi
        exact .inr ⟨vs, hv, h⟩
theorem argsX_says (env : Env) (d : Data) (df : Option JStr) : (es : List Arith) → Arith.AllValid es →
    (SaysX (evalArithAllX env d (nodesOf df (Arith.trees es))) x t ↔ ItemComplains env d es x t)
  | [], _ => ⟨fun h => (by cases h), fun h => absurd h item_nil⟩
  | e :: es, h => by
    rw [Arith.AllValid] at h
    rw [Arith.trees, nodesOf, evalArithAllX, item_cons]
    simp only [says_bind, evalArithX_same, arith_eval env d df e h.1, arithX_says env d df e h.1,
      argsX_says env d df es h.2, says_pure, and_false, exists_false, or_false]
end

theorem itemsX_eq (env : Env) (d : Data) (df : Option JStr) (es : List Arith) (h : Arith.AllValid es)
    (hs : Arith.simpleArgs es = true) :
    evalItemsX env d (nodesOf df (Arith.trees es)) = evalArithAllX env d (nodesOf df (Arith.trees es)) := by
  induction es with
  | nil => rfl
  | cons e es ih =>
    rw [Arith.AllValid] at h
    rw [Arith.simpleArgs, Bool.and_eq_true] at hs
    rw [Arith.trees, nodesOf, evalItemsX, evalArithAllX, ih h.2 hs.2]
    have : (nodeOf df e.tree).isArithBase = true := by
      cases e with
      | field f => rw [Arith.tree, nodeOf_field]; rfl
      | lit l => rw [Arith.Valid] at h; rw [Arith.tree, nodeOf_lit df h.1]; rfl
      | group e => exact absurd hs.1 (by intro h; cases h)
      | op o l r => rw [Arith.tree, nodeOf]; rfl
      | neg e => rw [Arith.tree, nodeOf]; rfl
      | call f args => rw [Arith.tree, nodeOf]; rfl
    rw [itemValueX, if_pos this]

/-! ### Operands of comparisons -/

theorem operandX_compound (env : Env) (d : Data) {n : Node} (h : n.isCompound = true) (b : Told Bool) :
    operandValueX env d n b = (evalArithX env d n >>= fun v => bare (optOf v)) := by
  cases n <;> first | rfl | cases h

theorem optOf_ne_none (v : Value) : optOf v ≠ .ok none := by cases v <;> (intro h; cases h)

theorem leftX_says (env : Env) (d : Data) (df : Option JStr) {e : Arith} (hv : e.Valid) (b : Told Bool)
    (h : e.isAtom = true ∨ ∃ a, e.readable a = true) :
    SaysX (operandValueX env d (nodeOf df e.tree) b >>= fun lo => leftX false (nodeOf df e.tree) lo) x t ↔
      e.Complains env d x t := by
  by_cases ha : e.isAtom = true
  · cases e <;> try cases ha
    · rename_i f
      rw [Arith.tree, nodeOf_field, operandValueX, says_bare_bind]
      show (∃ a, getValueFromMap f d = .ok a ∧ _) ↔ _
      constructor
      · rintro ⟨o, ho, h⟩
        cases o with
        | some v => cases h
        | none => cases h; exact .field (absent_iff.2 ho)
      · intro h
        cases h with
        | field h => exact ⟨none, absent_iff.1 h, rfl⟩
    · rename_i l
      rw [Arith.Valid] at hv
      rw [Arith.tree, nodeOf_lit df hv, operandValueX, says_bare_bind]
      constructor
      · rintro ⟨o, ho, h⟩
        cases o with
        | some v => cases h
        | none => exact absurd ho (optOf_ne_none _)
      · intro h; cases h
  · rw [Bool.not_eq_true] at ha
    rcases h with h | ⟨a, h⟩
    · rw [h] at ha; cases ha
    rw [operandX_compound env d (compound_node df e a ha h), says_bind, says_bind, arithX_says env d df e hv]
    constructor
    · rintro ((h | ⟨_, _, h⟩) | ⟨o, ho, h⟩)
      · exact h
      · exact absurd h says_bare.1
      · exfalso
        cases o with
        | some v => cases h
        | none =>
          rw [untold_bind] at ho
          obtain ⟨v, _, ho⟩ := bind_ok_inv ho
          rw [untold_bare] at ho
          exact optOf_ne_none v ho
    · exact fun h => .inl (.inl h)

theorem rightX_says (env : Env) (d : Data) (df : Option JStr) {e : Arith} (hv : e.Valid) (b : Told Bool)
    (h : e.isAtom = true ∨ ∃ a, e.readable a = true) :
    SaysX (rightX false (operandValueX env d (nodeOf df e.tree) b)) x t ↔ (∀ f, e ≠ .field f) ∧ e.Complains env d x t := by
  show SaysX (operandValueX env d (nodeOf df e.tree) b >>= fun ro => match ro with
    | some v => pure v
    | none => .error ⟨.noSuchElement, none⟩) x t ↔ _
  have hend : ∀ {o : Option Value}, ¬ SaysX (match o with
    | some v => pure v
    | none => .error ⟨.noSuchElement, none⟩ : Told Value) x t := by
    intro o h; cases o <;> cases h
  by_cases ha : e.isAtom = true
  · cases e <;> try cases ha
    · rename_i f
      rw [Arith.tree, nodeOf_field, operandValueX, says_bare_bind]
      exact ⟨fun ⟨o, _, h⟩ => absurd h hend, fun h => absurd rfl (h.1 f)⟩
    · rename_i l
      rw [Arith.Valid] at hv
      rw [Arith.tree, nodeOf_lit df hv, operandValueX, says_bare_bind]
      exact ⟨fun ⟨o, _, h⟩ => absurd h hend, fun h => (by cases h.2)⟩
  · rw [Bool.not_eq_true] at ha
    rcases h with h | ⟨a, h⟩
    · rw [h] at ha; cases ha
    rw [operandX_compound env d (compound_node df e a ha h), says_bind, says_bind, arithX_says env d df e hv]
    constructor
    · rintro ((h | ⟨_, _, h⟩) | ⟨o, ho, h⟩)
      · exact ⟨fun f hf => (by subst hf; cases ha), h⟩
      · exact absurd h says_bare.1
      · exact absurd h hend
    · exact fun h => .inl (.inl h.2)

theorem orMissing_left (l : Node) (lv : Told (Option Value)) :
    untold (lv >>= fun lo => leftX false l lo) = orMissing .dataNotFound (untold lv) := by
  rw [untold_bind, orMissing]
  congr 1; funext o
  rw [leftX_same]
  cases o <;> rfl

theorem orMissing_right (rv : Told (Option Value)) : untold (rightX false rv) = orMissing .noSuchElement (untold rv) := by
  cases rv with
  | error e => rfl
  | ok o => cases o <;> rfl

theorem comparisonX_says {op : CmpOp} {l r : Node} {lv rv : Told (Option Value)}
    (h : (op = .eq ∨ op = .ne) → l.isNullField = .ok false ∧ r.isNullField = .ok false) :
    SaysX (evalComparisonX op l r lv rv) x t ↔ SaysX (lv >>= fun lo => leftX false l lo) x t ∨
      ∃ a, orMissing .dataNotFound (untold lv) = .ok a ∧ (SaysX (rightX false rv) x t ∨
        ∃ b, orMissing .noSuchElement (untold rv) = .ok b ∧ x = .invalidDataType ∧ TestSays op a b t) := by
  have hn : isNullCheck op l r = .ok false := by
    unfold isNullCheck
    split
    · rename_i ho
      have ho' : op = .eq ∨ op = .ne := by simpa using ho
      rw [(h ho').2, ok_bind]
      exact (h ho').1
    · rfl
  have e : evalComparisonX op l r lv rv = (lv >>= fun lo => leftX false l lo) >>= fun a => rightX false rv >>= fun b =>
      logicalCmpX op a (getDataType a) b (getDataType b) := by
    unfold evalComparisonX
    rw [hn]
    cases lv <;> rfl
  rw [e]
  simp only [says_bind (m := lv >>= fun lo => leftX false l lo), says_bind (m := rightX false rv), orMissing_left,
    orMissing_right, logicalCmpX_says]

/-! ### Conditions -/

theorem rightValue_inv {env : Env} {d : Data} {e : Arith} {v : Value} (h : Cond.rightValue env d e = .ok v) :
    e.value env d = .ok v := by
  cases e with
  | field f =>
    rw [Cond.rightValue] at h
    rw [Arith.value, Arith.fieldValue]
    cases e : getValueFromMap f d with
    | error y => rw [e] at h; cases h
    | ok o =>
      rw [e] at h
      cases o with
      | none => cases h
      | some w => cases h; rfl
  | _ => exact h

theorem evalBoolX_not (env : Env) (d : Data) (n : Node) :
    evalBoolX env d (.not_ n) = evalBoolX env d n >>= fun a => pure (!a) := by rw [evalBoolX]

theorem logicalCmp_null (eq : Bool) : logicalCmpX (if eq then .eq else .ne) (.str j!"null") (getDataType (.str j!"null"))
    (.str j!"null") (getDataType (.str j!"null")) = .ok eq := by
  cases eq <;> krfl

theorem says_not {m : Told Bool} : SaysX (m >>= fun a => pure (!a)) x t ↔ SaysX m x t := by
  rw [says_bind]
  simp only [says_pure, and_false, exists_false, or_false]

theorem condX_says (env : Env) (d : Data) (df : Option JStr) (hdf : dfOk df) : (c : Cond) → c.Valid →
    ∀ left, c.readable left = true → (SaysX (evalBoolX env d (nodeOf df c.tree)) x t ↔ c.Complains env d df x t)
  | .cmp o l r, hv, left, h => by
    obtain ⟨h1, h2⟩ := cmp_sides h
    rw [Cond.tree, nodeOf, evalBoolX, comparisonX_says, leftX_says env d df hv.1 _ h1, rightX_says env d df hv.2.1 _ h2,
      operandValueX_same, operandValueX_same, operand_left env d df hv.1 _ h1, operand_right env d df hv.2.1 _ h2]
    · constructor
      · rintro (h | ⟨a, ha, ⟨hf, h⟩ | ⟨b, hb, rfl, h⟩⟩)
        · exact .left (.given h)
        · exact .right ha hf h
        · exact .cmp ha (rightValue_inv hb) h
      · intro h
        cases h with
        | left h => cases h with | given h => exact .inl h
        | right ha hf h => exact .inr ⟨_, ha, .inl ⟨hf, h⟩⟩
        | cmp ha hb h => exact .inr ⟨_, ha, .inr ⟨_, rightValue_ok hb, rfl, h⟩⟩
    · intro ho
      exact ⟨nullField_false df hv.1 h1 (hv.2.2 ho).1, nullField_false df hv.2.1 h2 (hv.2.2 ho).2⟩
  | .cmpD o r, hv, left, h => by
    have h2 : r.isAtom = true ∨ ∃ a, r.readable a = true := by
      rw [Cond.readable] at h
      by_cases hr : r.isAtom = true
      · exact .inl hr
      · rw [if_neg hr] at h; exact side_ok h
    have hn : nodeOf df (.types (cmpTok o) true) = .field df := by rw [nodeOf]; rfl
    rw [Cond.tree, nodeOf, evalBoolX, hn]
    cases df with
    | none =>
      refine ⟨fun h => (by rw [evalComparisonX, operandValueX] at h; cases h), ?_⟩
      intro h
      cases h with
      | leftD h => cases h with | default h => cases h
      | rightD h => cases h
      | cmpD h => cases h
    | some f =>
      have hl := leftX_says (x := x) (t := t) env d (some f) (e := .field f) (b := evalBoolX env d (.field (some f)))
      rw [comparisonX_says, rightX_says env d (some f) hv.1 _ h2, operandValueX_same, operandValueX_same,
        operand_right env d (some f) hv.1 _ h2]
      · have hl : SaysX (operandValueX env d (.field (some f)) (evalBoolX env d (.field (some f))) >>=
            fun lo => leftX false (.field (some f)) lo) x t ↔ x = .dataNotFound ∧ Absent d f ∧ t = missingText f := by
          rw [operandValueX, says_bare_bind]
          show (∃ a, getValueFromMap f d = .ok a ∧ _) ↔ _
          constructor
          · rintro ⟨o, ho, h⟩
            cases o with
            | some v => cases h
            | none => cases h; exact ⟨rfl, absent_iff.2 ho, rfl⟩
          · rintro ⟨rfl, h, rfl⟩; exact ⟨none, absent_iff.1 h, rfl⟩
        rw [hl]
        have hd : orMissing .dataNotFound (operandValue env d (.field (some f)) (untold (evalBoolX env d (.field (some f))))) =
            Cond.defaultValue (some f) d := rfl
        rw [hd]
        constructor
        · rintro (⟨rfl, h, rfl⟩ | ⟨a, ha, ⟨hf, h⟩ | ⟨b, hb, rfl, h⟩⟩)
          · exact .leftD (.default rfl h)
          · exact .rightD ha hf h
          · exact .cmpD ha (rightValue_inv hb) h
        · intro h
          cases h with
          | leftD h => cases h with | default h h' => cases h; exact .inl ⟨rfl, h', rfl⟩
          | rightD ha hf h => exact .inr ⟨_, ha, .inl ⟨hf, h⟩⟩
          | cmpD ha hb h => exact .inr ⟨_, ha, .inr ⟨_, rightValue_ok hb, rfl, h⟩⟩
      · intro ho
        refine ⟨?_, nullField_false _ hv.1 h2 (hv.2 ho)⟩
        rw [Node.isNullField, hdf f rfl]
  | .isNull f eq, hv, left, h => by
    rw [Cond.tree, nodeOf, evalBoolX, nodeOf_field, nodeOf_field]
    have hn : isNullCheck (if eq then .eq else .ne) (.field (some f)) (.field (some j!"null")) = .ok true := by
      cases eq <;> rfl
    rw [evalComparisonX, hn, operandValueX]
    show SaysX (bare (getValueFromMap f d) >>= fun lo => logicalCmpX (if eq then .eq else .ne) (lo.getD (.str j!"null"))
      (getDataType (lo.getD (.str j!"null"))) (.str j!"null") (getDataType (.str j!"null"))) x t ↔ _
    rw [says_bare_bind]
    constructor
    · rintro ⟨o, ho, h⟩
      cases o with
      | none => rw [Option.getD_none, logicalCmp_null] at h; cases h
      | some v =>
        obtain ⟨rfl, h'⟩ := (logicalCmpX_says _ v _).1 h
        exact .isNull (v := v) (by rw [Arith.fieldValue, ho]; rfl) h'
    · intro h
      cases h with
      | isNull hf h =>
        rename_i v
        have ho : getValueFromMap f d = .ok (some v) := by
          rw [Arith.fieldValue] at hf
          cases e : getValueFromMap f d with
          | error y => rw [e] at hf; cases hf
          | ok o =>
            rw [e] at hf
            cases o with
            | none => cases hf
            | some w => cases hf; rfl
        exact ⟨some v, ho, (logicalCmpX_says _ _ _).2 ⟨rfl, h⟩⟩
  | .range f lo hi, hv, left, h => by
    rw [Cond.tree, nodeOf, evalBoolX, evalRangeX, lo.tokVal hv.2.1, hi.tokVal hv.2.2.1,
      lo.number_type hv.2.2.2.1 hv.2.1, hi.number_type hv.2.2.2.2 hv.2.2.1]
    simp only [says_bind, requireFieldX_says, requireFieldX_same, requireField_eq, logicalCmpX_says, logicalCmpX_same,
      says_pure, and_false, exists_false, or_false]
    constructor
    · rintro (⟨rfl, h, rfl⟩ | ⟨v, hv, ⟨rfl, h⟩ | ⟨b, hb, rfl, h⟩⟩)
      · exact .rangeField h
      · exact .low hv h
      · exact .high hv hb h
    · intro h
      cases h with
      | rangeField h => exact .inl ⟨rfl, h, rfl⟩
      | low hv h => exact .inr ⟨_, hv, .inl ⟨rfl, h⟩⟩
      | high hv hb h => exact .inr ⟨_, hv, .inr ⟨_, hb, rfl, h⟩⟩
  | .isIn f neg items, hv, left, h => by
    rw [Cond.readable] at h
    have key : SaysX (evalBoolX env d (.inn f (nodesOf df (Arith.trees items)))) x t ↔
        Cond.Complains env d df (.isIn f neg items) x t := by
      rw [evalBoolX, itemsX_eq env d df items hv.2.2 h]
      simp only [says_bind, requireFieldX_says, requireFieldX_same, requireField_eq, evalArithAllX_same,
        args_eval env d df items hv.2.2, argsX_says env d df items hv.2.2, flatten_typed, logicalInX_says]
      constructor
      · rintro (⟨rfl, h, rfl⟩ | ⟨v, hv, h | ⟨vs, hvs, rfl, h⟩⟩)
        · exact .inField h
        · exact .inItem hv h
        · exact .isIn hv ⟨vs, hvs, rfl⟩ h
      · intro h
        cases h with
        | inField h => exact .inl ⟨rfl, h, rfl⟩
        | inItem hv h => exact .inr ⟨_, hv, .inl h⟩
        | isIn hv hi h =>
          obtain ⟨vs, hvs, rfl⟩ := hi
          exact .inr ⟨_, hv, .inr ⟨vs, hvs, rfl, h⟩⟩
    rw [Cond.tree, nodeOf, ← key]
    cases neg with
    | false => exact Iff.rfl
    | true =>
      show SaysX (evalBoolX env d (.not_ (.inn f (nodesOf df (Arith.trees items))))) x t ↔ _
      rw [evalBoolX_not, says_not]
  | .contains f o items, hv, left, h => by
    rw [Cond.readable] at h
    rw [Cond.tree, nodeOf, evalBoolX, itemsX_eq env d df items hv.2.2 h]
    have e : ∀ (v : Value) (vs : List Value), SaysX (do
        if heterogeneous (flattenItems vs) then tell .heterogeneousArray j!"Heterogeneous input of array not allowed"
        logicalArrayX o v (getDataType v) (flattenItems vs)) x t ↔
        (heterogeneous (flattenItems vs) = true ∧ x = .heterogeneousArray ∧ t = j!"Heterogeneous input of array not allowed") ∨
        (¬ heterogeneous (flattenItems vs) = true ∧ SaysX (logicalArrayX o v (getDataType v) (flattenItems vs)) x t) := by
      intro v vs
      by_cases hh : heterogeneous (flattenItems vs) = true
      · rw [if_pos hh]
        simp only [hh, true_and, not_true_eq_false, false_and, or_false]
        exact says_tell
      · rw [if_neg hh]
        exact ⟨fun h => .inr ⟨hh, h⟩, fun h => h.elim (fun h => absurd h.1 hh) fun h => h.2⟩
    rw [says_bind]
    simp only [says_bind (m := evalArithAllX _ _ _), e]
    simp only [requireFieldX_says, requireFieldX_same, requireField_eq, evalArithAllX_same,
      args_eval env d df items hv.2.2, argsX_says env d df items hv.2.2, flatten_typed, hetero_typed, logicalArrayX_says]
    constructor
    · rintro (⟨rfl, h, rfl⟩ | ⟨v, hv, h | ⟨vs, hvs, ⟨⟨w, hw, z, hz, hn⟩, rfl, rfl⟩ | ⟨hm, rfl, h1, h2, h3, rfl⟩⟩⟩)
      · exact .containsField h
      · exact .containsItem hv h
      · exact .mixed hv ⟨vs, hvs, rfl⟩ hw hz hn
      · exact .noList hv ⟨vs, hvs, rfl⟩ (fun w hw z hz => by
          by_contra hn; exact hm ⟨w, hw, z, hz, hn⟩) h1 h2 h3
    · intro h
      cases h with
      | containsField h => exact .inl ⟨rfl, h, rfl⟩
      | containsItem hv h => exact .inr ⟨_, hv, .inl h⟩
      | mixed hv hi hw hz hn =>
        obtain ⟨vs, hvs, rfl⟩ := hi
        exact .inr ⟨_, hv, .inr ⟨vs, hvs, .inl ⟨⟨_, hw, _, hz, hn⟩, rfl, rfl⟩⟩⟩
      | noList hv hi hm h1 h2 h3 =>
        obtain ⟨vs, hvs, rfl⟩ := hi
        exact .inr ⟨_, hv, .inr ⟨vs, hvs, .inr ⟨fun ⟨w, hw, z, hz, hn⟩ => hn (hm w hw z hz), rfl, h1, h2, h3, rfl⟩⟩⟩
  | .notField f, hv, left, h => by
    have e1 : Tree.tokVal (.types (fieldTok f) false) = .str f := by
      show tokVal (fieldTok f) = _
      rw [tokVal, show convertValue (fieldTok f).text (tokType (fieldTok f)) = .ok (.str f) from field_conv hv]; rfl
    rw [Cond.tree, nodeOf, if_pos (by rfl), evalBoolX, says_not, e1, evalBoolX]
    show SaysX (evalUnaryX d .string (.str f)) x t ↔ _
    unfold evalUnaryX
    rw [if_neg (by decide)]
    show SaysX (requireFieldX (some f) d >>= fun y => unaryX y) x t ↔ _
    rw [says_bind, requireFieldX_says, requireFieldX_same, requireField_eq]
    constructor
    · rintro (⟨rfl, h, rfl⟩ | ⟨v, hv, h⟩)
      · exact .notField h
      · cases v <;> first
          | (cases h; done)
          | (obtain ⟨rfl, rfl⟩ := says_tell.1 h; exact .notBool hv (by intro b hb; cases hb))
    · intro h
      cases h with
      | notField h => exact .inl ⟨rfl, h, rfl⟩
      | notBool hv hb =>
        rename_i v
        refine .inr ⟨v, hv, ?_⟩
        cases v <;> first | rfl | exact absurd rfl (hb _)
  | .not c, hv, left, h => by
    rw [Cond.readable] at h
    rw [Cond.tree, nodeOf, cond_isTypes, if_neg (by decide), evalBoolX, says_not, condX_says env d df hdf c hv left h]
    exact ⟨.not, fun h => (by cases h with | not h => exact h)⟩
  | .group c, hv, left, h => by
    rw [Cond.readable] at h
    rw [Cond.tree, nodeOf, condX_says env d df hdf c hv left h]
    exact ⟨.group, fun h => (by cases h with | group h => exact h)⟩
  | .conn conj l r, hv, left, h => by
    rw [Cond.readable, Bool.and_eq_true, Bool.and_eq_true] at h
    have el := condX_says env d df hdf l hv.1 left h.1
    have er := condX_says env d df hdf r hv.2 _ h.2.1
    have ml := cond_eval env d df hdf l hv.1 left h.1
    have step : SaysX (evalBoolX env d (nodeOf df (Cond.conn conj l r).tree)) x t ↔
        Cond.Complains env d df l x t ∨ (l.meaning env d df = .ok conj ∧ Cond.Complains env d df r x t) := by
      rw [Cond.tree, nodeOf]
      cases conj
      · rw [if_neg (by decide), evalBoolX, says_bind, el, evalBoolX_same, ml]
        refine or_congr_right ⟨?_, ?_⟩
        · rintro ⟨b, hb, h⟩
          cases b
          · exact ⟨hb, er.1 h⟩
          · cases h
        · rintro ⟨hb, h⟩; exact ⟨false, hb, er.2 h⟩
      · rw [if_pos rfl, evalBoolX, says_bind, el, evalBoolX_same, ml]
        refine or_congr_right ⟨?_, ?_⟩
        · rintro ⟨b, hb, h⟩
          cases b
          · cases h
          · exact ⟨hb, er.1 h⟩
        · rintro ⟨hb, h⟩; exact ⟨true, hb, er.2 h⟩
    rw [step]
    constructor
    · rintro (h | ⟨hb, h⟩)
      · exact .connLeft h
      · exact .connRight hb h
    · intro h
      cases h with
      | connLeft h => exact .inl h
      | connRight hb h => exact .inr ⟨hb, h⟩

end BoolParser
