import Verif.Lemmas.Causes
/-!
# The causes of the failures of an evaluation
-/

namespace BoolParser
open Spec

/-- Operators and functions that look at values. -/
def TK.looks : TK → Bool
  | .cmp _ | .kTo | .kIn | .cAll | .cAny | .arith _ | .fn _ => true
  | _ => false

/-- Operators and functions of arithmetic. -/
def TK.reckons : TK → Bool
  | .arith _ | .fn _ => true
  | _ => false

/-- What only conditions contain. -/
def TK.judges : TK → Bool
  | .cmp _ | .kTo | .kIn | .cAll | .cAny | .kAnd | .kOr | .kNot => true
  | _ => false

/-- A name made of dots only. -/
def Dots (f : JStr) : Prop := f ≠ [] ∧ ∀ c ∈ f, c = '.'

/-- `P` holds of every exception that has a cause among the tokens `S`, the values `W` and the data `d`. -/
structure Explains (S : Stock) (W : Givens) (d : Data) (P : Exn → Prop) : Prop where
  lit : ∀ {t v}, S.lit t v → Val W v
  bound : ∀ {t v}, S.bound t v → Val W v
  litBool : ∀ {v}, S.lit .boolean v → ∃ b, v = .bool b
  data : ∀ {f v}, getValueFromMap f d = .ok (some v) → Val W v
  type : ∀ {k : TK}, S.kind k → k.looks = true → P .invalidDataType
  missing : P .dataNotFound
  gap : S.gap → P .nullPointer
  null : W.null → P .nullPointer
  dots : ∀ {f}, S.field f → Dots f → P .indexOutOfBounds
  big : W.big → P .noSuchElement
  right : ∀ {op f}, S.kind (.cmp op) → S.field f → getValueFromMap f d = .ok none → P .noSuchElement
  flt : S.kind (.arith .sub) → W.flt → P .classCast
  coll : ∀ {op : ArrOp}, S.kind op.kind → W.coll → P .classCast
  hetero : ∀ {op : ArrOp}, S.kind op.kind → P .heterogeneousArray
  div : ∀ {op : ArithOp}, S.kind (.arith op) → op = .div ∨ op = .mod → P .arithmetic
  exp : S.kind (.arith .exp) → P .numberFormat
  exact : ∀ {f : FuncType}, S.kind (.fn f) → f.exact = true → P .arithmetic
  args : ∀ {f : FuncType}, S.kind (.fn f) → f ≠ .len → P .invalidContainerType
  days : S.kind (.fn .daysElapsed) → P .invalidFunctionArgument
  empty : ∀ {f : FuncType}, S.kind (.fn f) → W.empty → P .invalidExpression
  counts : ∀ {f : FuncType}, S.kind (.fn f) → f = .len ∨ f = .daysElapsed → W.big
  unsup : ∀ {k k' : TK}, S.kind k → k.judges = true → S.kind k' → k'.reckons = true → P .unsupportedToken

variable {S : Stock} {W : Givens} {env : Env} {d : Data} {P : Exn → Prop}

theorem arr_looks (op : ArrOp) : (op.kind).looks = true := by cases op <;> rfl
theorem arr_judges (op : ArrOp) : (op.kind).judges = true := by cases op <;> rfl

/-! ### Lookups -/

theorem walkKeys_fails : (ks : List JStr) → ks ≠ [] → (d : Data) → FailsBy P (walkKeys ks d)
  | [], h, _ => absurd rfl h
  | [k], _, d => by
    rw [walkKeys]
    split <;> exact fails_ok _
  | k :: k2 :: ks, _, d => by
    rw [walkKeys]
    split
    · exact walkKeys_fails (k2 :: ks) (by simp) _
    · exact fails_ok _

theorem fails_lookup {f : JStr} (h : Dots f → P .indexOutOfBounds) : FailsBy P (getValueFromMap f d) := by
  rcases name_cases f with rfl | ⟨ks, hk⟩ | hd
  · exact walkKeys_fails [[]] (by simp) d
  · unfold getValueFromMap
    rw [splitKey_names hk]
    exact walkKeys_fails ks hk.1.1 d
  · rw [lookup_dots hd.1 hd.2]
    exact fails_err (h hd)

variable (X : Explains S W d P)
include X

theorem X_requireField {f : JStr} (h : Dots f → P .indexOutOfBounds) : FailsBy P (requireField (some f) d) := by
  unfold requireField lookupField
  refine fails_bind' (fails_lookup h) fun o => ?_
  cases o
  · exact fails_err X.missing
  · exact fails_ok _

theorem val_requireField {f : JStr} : Yields (Val W) (requireField (some f) d) := by
  intro v h
  unfold requireField lookupField at h
  obtain ⟨o, h1, h2⟩ := bind_ok_inv h
  cases o with
  | none => cases h2
  | some w => cases h2; exact X.data h1

theorem X_fieldOpt {f : Option JStr} (h : Made S (.field f)) : FailsBy P (requireField f d) := by
  cases f with
  | none => exact fails_err (X.gap h)
  | some f => exact X_requireField X (X.dots h)

theorem val_fieldOpt {f : Option JStr} : Yields (Val W) (requireField f d) := by
  cases f with
  | none => exact yields_err _
  | some f => exact val_requireField X

/-! ### Arithmetic -/

omit X in
theorem made_judges {n : Node} (h : Made S n) (hn : n.isArithBase = false) : ∃ k, S.kind k ∧ k.judges = true := by
  cases n <;> first | cases hn | skip
  · exact ⟨_, h.1, rfl⟩
  · exact ⟨_, h.1, rfl⟩
  · exact ⟨_, h.1, rfl⟩
  · exact ⟨_, h.1, arr_judges _⟩
  · exact ⟨_, h.1, rfl⟩
  · exact ⟨_, h.1, rfl⟩
  · exact ⟨_, h.1, rfl⟩

mutual
theorem X_arith : (n : Node) → Made S n → (n.isArithBase = false → P .unsupportedToken) →
    FailsBy P (evalArith env d n) ∧ Yields (Val W) (evalArith env d n)
  | .cmp _ _ _ _, _, hu => ⟨by simp only [evalArith]; exact fails_err (hu rfl), by simp only [evalArith]; exact yields_err _⟩
  | .range _ _ _ _ _, _, hu => ⟨by simp only [evalArith]; exact fails_err (hu rfl), by simp only [evalArith]; exact yields_err _⟩
  | .inn _ _, _, hu => ⟨by simp only [evalArith]; exact fails_err (hu rfl), by simp only [evalArith]; exact yields_err _⟩
  | .array _ _ _, _, hu => ⟨by simp only [evalArith]; exact fails_err (hu rfl), by simp only [evalArith]; exact yields_err _⟩
  | .and_ _ _, _, hu => ⟨by simp only [evalArith]; exact fails_err (hu rfl), by simp only [evalArith]; exact yields_err _⟩
  | .or_ _ _, _, hu => ⟨by simp only [evalArith]; exact fails_err (hu rfl), by simp only [evalArith]; exact yields_err _⟩
  | .not_ _, _, hu => ⟨by simp only [evalArith]; exact fails_err (hu rfl), by simp only [evalArith]; exact yields_err _⟩
  | .unary t v, h, _ => by
    rw [evalArith]
    exact ⟨fails_ok _, yields_ok (X.lit h)⟩
  | .field f, h, _ => by
    rw [evalArith]
    exact ⟨X_fieldOpt X h, val_fieldOpt X⟩
  | .arith op l r, h, _ => by
    rw [Made] at h
    have hu : ∀ n, Made S n → n.isArithBase = false → P .unsupportedToken := fun n hn h0 => by
      obtain ⟨k, h1, h2⟩ := made_judges hn h0
      exact X.unsup h1 h2 h.1 rfl
    have hl := X_arith l h.2.1 (hu l h.2.1)
    have hr := X_arith r h.2.2 (hu r h.2.2)
    rw [evalArith]
    refine ⟨fails_bind hl.1 fun a ha => fails_bind hr.1 fun b hb => ?_,
      yields_bind hl.2 fun a ha => yields_bind' fun b => val_arithBinary env op _ _ ha⟩
    exact fails_arithBinary env op (hl.2 a ha) (hr.2 b hb) (X.type h.1 rfl) X.big (X.div h.1)
      (fun e => X.exp (e ▸ h.1)) X.null
  | .neg l, h, _ => by
    rw [Made] at h
    have hl := X_arith l h.2 (fun h0 => by
      obtain ⟨k, h1, h2⟩ := made_judges h.2 h0
      exact X.unsup h1 h2 h.1 rfl)
    rw [evalArith]
    refine ⟨fails_bind hl.1 fun a ha => ?_, yields_bind' fun a => val_arithNegate _ _⟩
    exact fails_arithNegate (hl.2 a ha) (X.type h.1 rfl) (X.flt h.1) X.null
  | .func f items, h, _ => by
    rw [Made] at h
    have hs := X_arithAll items h.2.2 (fun n hn h0 => by
      obtain ⟨k, h1, h2⟩ := made_judges hn h0
      exact X.unsup h1 h2 h.1 rfl)
    rw [evalArith]
    refine ⟨fails_bind hs.1 fun vs hv => ?_, yields_bind hs.2 fun vs hv => val_callFn env f (flatten_args vs hv.2) (X.counts h.1)⟩
    have hv := hs.2 vs hv
    refine fails_callFn env f (X.type h.1 rfl) X.big (flatten_args vs hv.2) (fun e => X.empty h.1 (flatten_nil ?_ e hv.2))
      (X.args h.1) (X.exact h.1) (fun e => X.days (e ▸ h.1)) X.null
    intro e
    have := hv.1
    rw [e] at this
    exact h.2.1 (List.length_eq_zero_iff.1 this.symm)
theorem X_arithAll : (ns : List Node) → Mades S ns → (∀ n, Made S n → n.isArithBase = false → P .unsupportedToken) →
    FailsBy P (evalArithAll env d ns) ∧ Yields (fun vs => vs.length = ns.length ∧ ∀ v ∈ vs, Val W v) (evalArithAll env d ns)
  | [], _, _ => by
    rw [evalArithAll]
    exact ⟨fails_ok _, yields_ok ⟨rfl, by simp⟩⟩
  | n :: ns, h, hu => by
    rw [Mades] at h
    have h1 := X_arith n h.1 (hu n h.1)
    have h2 := X_arithAll ns h.2 hu
    rw [evalArithAll]
    refine ⟨fails_bind' h1.1 fun _ => fails_bind' h2.1 fun _ => fails_ok _,
      yields_bind h1.2 fun v hv => yields_bind h2.2 fun vs hvs => yields_ok ⟨by simp [hvs.1], ?_⟩⟩
    intro w hw
    rcases List.mem_cons.1 hw with rfl | hw
    · exact hv
    · exact hvs.2 w hw
end

/-! ### Conditions -/

/-- Arithmetic inside a condition. -/
theorem X_inner {n : Node} (h : Made S n) (hn : n.isArithBase = true) :
    FailsBy P (evalArith env d n) ∧ Yields (Val W) (evalArith env d n) :=
  X_arith X n h (fun h0 => by rw [hn] at h0; cases h0)

theorem X_optOf {v : Value} (h : Val W v) : FailsBy P (optOf v) := by
  unfold optOf
  split
  · exact fails_err (X.null (val_self h))
  · exact fails_ok _

omit X in
theorem val_optOf {v : Value} (h : Val W v) : Yields (fun o => ∀ w, o = some w → Val W w) (optOf v) := by
  unfold optOf
  split
  · exact yields_err _
  · refine yields_ok fun w hw => ?_
    cases hw
    exact h

theorem X_operand {n : Node} (h : Made S n) {r : Result Bool} (hb : n.isArithBase = false → FailsBy P r) :
    FailsBy P (operandValue env d n r) ∧ Yields (fun o => ∀ w, o = some w → Val W w) (operandValue env d n r) := by
  have ha : n.isArithBase = true → FailsBy P (evalArith env d n >>= optOf) ∧
      Yields (fun o => ∀ w, o = some w → Val W w) (evalArith env d n >>= optOf) := fun hn => by
    have := X_inner X (env := env) h hn
    exact ⟨fails_bind this.1 fun v hv => X_optOf X (this.2 v hv), yields_bind this.2 fun v hv => val_optOf hv⟩
  have hc : n.isArithBase = false → FailsBy P (r >>= fun x => (pure (some (.bool x)) : Result (Option Value))) ∧
      Yields (fun o => ∀ w, o = some w → Val W w) (r >>= fun x => (pure (some (.bool x)) : Result (Option Value))) := fun hn =>
    ⟨fails_bind' (hb hn) fun _ => fails_ok _, yields_bind' fun x => yields_ok (by rintro w ⟨⟩; exact val_bool _)⟩
  cases n with
  | field f =>
    refine ⟨?_, ?_⟩
    · cases f with
      | none => exact fails_err (X.gap h)
      | some f => exact fails_lookup (X.dots h)
    · cases f with
      | none => exact yields_err _
      | some f =>
        intro o ho w hw
        subst hw
        exact X.data ho
  | unary t v => exact ⟨X_optOf X (X.lit h), val_optOf (X.lit h)⟩
  | arith _ _ _ | neg _ | func _ _ => exact ha rfl
  | _ => exact hc rfl

theorem X_itemValue {n : Node} (h : Made S n) {r : Result Bool} (hb : n.isArithBase = false → FailsBy P r) :
    FailsBy P (itemValue env d n r) ∧ Yields (Val W) (itemValue env d n r) := by
  unfold itemValue
  cases hn : n.isArithBase with
  | true => exact X_inner X h hn
  | false => exact ⟨fails_bind' (hb hn) fun _ => fails_ok _, yields_bind' fun x => yields_ok (val_bool _)⟩

theorem X_comparison {op : CmpOp} {l r : Node} (ho : S.kind (.cmp op)) (hl : Made S l) (hr : Made S r) {a b : Result Bool}
    (ha : l.isArithBase = false → FailsBy P a) (hb : r.isArithBase = false → FailsBy P b) :
    FailsBy P (evalComparison op l r (operandValue env d l a) (operandValue env d r b)) := by
  have h1 := X_operand X (env := env) hl ha
  have h2 := X_operand X (env := env) hr hb
  have nf : ∀ {n : Node}, Made S n → FailsBy P n.isNullField := by
    intro n hn
    cases n with
    | field f =>
      cases f with
      | none => exact fails_err (X.gap hn)
      | some f => exact fails_ok _
    | _ => exact fails_ok _
  have nc : FailsBy P (isNullCheck op l r) := by
    unfold isNullCheck
    refine fails_ite (fun _ => fails_bind' (nf hr) fun c => ?_) fun _ => fails_ok _
    cases c
    · exact nf hl
    · exact fails_ok _
  have none2 : operandValue env d r b = .ok none → P .noSuchElement := by
    intro hv
    cases r with
    | field f =>
      cases f with
      | none => cases hv
      | some f => exact X.right ho hr hv
    | unary t v =>
      simp only [operandValue, optOf] at hv
      split at hv <;> cases hv
    | arith _ _ _ | neg _ | func _ _ =>
      obtain ⟨v, _, hv⟩ := bind_ok_inv hv
      unfold optOf at hv
      split at hv <;> cases hv
    | _ => obtain ⟨v, _, hv⟩ := bind_ok_inv hv; cases hv
  unfold evalComparison
  refine fails_bind h1.1 fun lo hlo => fails_bind' nc fun c => fails_bind (P := P) ?_ fun x hx =>
    fails_bind (P := P) ?_ fun y hy => ?_
  · cases c
    · cases lo
      · exact fails_err X.missing
      · exact fails_ok _
    · exact fails_ok _
  · cases c
    · refine fails_bind h2.1 fun ro hro => ?_
      cases ro
      · exact fails_err (none2 hro)
      · exact fails_ok _
    · exact fails_ok _
  · have vx : Val W x := by
      cases c
      · cases lo with
        | none => cases hx
        | some v => cases hx; exact h1.2 _ hlo _ rfl
      · cases lo with
        | none => cases hx; exact val_str _
        | some v => cases hx; exact h1.2 _ hlo _ rfl
    have vy : Val W y := by
      cases c
      · obtain ⟨ro, hro, hy⟩ := bind_ok_inv hy
        cases ro with
        | none => cases hy
        | some v => cases hy; exact h2.2 _ hro _ rfl
      · cases hy; exact val_str _
    exact fails_logicalCmp (X.type ho rfl) op (fun e => X.null (null_world vx e)) (fun e => X.null (null_world vy e))

theorem X_range {f : JStr} {lo hi : Value} {s t : DataType} (h : Made S (.range f lo hi s t)) : FailsBy P (evalRange d f lo hi s t) := by
  unfold evalRange
  refine fails_bind (X_requireField X (X.dots h.2.1)) fun v hv => ?_
  have hv := val_requireField X v hv
  have hn : v = .null → P .nullPointer := fun e => X.null (null_world hv e)
  exact fails_bind' (fails_logicalCmp (X.type h.1 rfl) _ hn fun e => X.null (null_world (X.bound h.2.2.1) e)) fun _ =>
    fails_bind' (fails_logicalCmp (X.type h.1 rfl) _ hn fun e => X.null (null_world (X.bound h.2.2.2) e)) fun _ => fails_ok _

theorem X_unary {t : DataType} {v : Value} (h : S.lit t v) (hu : P .invalidUnaryOperand)
    (hd : Dots v.text → P .indexOutOfBounds) : FailsBy P (evalUnary d t v) := by
  unfold evalUnary
  by_cases ht : (t == .boolean) = true
  · rw [if_pos ht]
    have : t = .boolean := by simpa using ht
    subst this
    obtain ⟨b, rfl⟩ := X.litBool h
    exact fails_ok _
  · rw [if_neg ht]
    refine fails_bind (fails_toText fun e => X.null (null_world (X.lit h) e)) fun k hk => ?_
    have hn : v ≠ .null := by rintro rfl; cases hk
    rw [toText_ok hn] at hk
    cases hk
    refine fails_bind' (X_requireField X hd) fun x => ?_
    split
    · exact fails_ok _
    · exact fails_err hu

variable {b : Prop} (hu : b → P .invalidUnaryOperand) (hd : b → ∀ t v, S.lit t v → Dots v.text → P .indexOutOfBounds)
include hu hd

mutual
theorem X_bool : (n : Node) → Made S n → Placed b n → FailsBy P (evalBool env d n)
  | .cmp l r op dt, h, hp => by
    rw [Made] at h
    rw [evalBool]
    cases hp with
    | cmp pl pr =>
      exact X_comparison X h.1 h.2.1 h.2.2 (fun h0 => X_bool l h.2.1 (pl h0)) (fun h0 => X_bool r h.2.2 (pr h0))
  | .range f lo hi s t, h, _ => by
    rw [evalBool]
    exact X_range X h
  | .inn f items, h, hp => by
    rw [Made] at h
    rw [evalBool]
    cases hp with
    | inn hp =>
      have hs := X_items items h.2.2 hp
      refine fails_bind (X_requireField X (X.dots h.2.1)) fun v hv => fails_bind hs.1 fun vs hvs => ?_
      have hv := val_requireField X v hv
      have hvs := flatten_args vs (hs.2 vs hvs)
      exact fails_logicalIn (X.type h.1 rfl) (fun e => X.null (null_world hv e)) (fun r hr e => X.null (null_world (hvs r hr).1 e))
  | .array f op items, h, hp => by
    rw [Made] at h
    rw [evalBool]
    cases hp with
    | array hp =>
      have hs := X_items items h.2.2 hp
      refine fails_bind (X_requireField X (X.dots h.2.1)) fun v hv => fails_bind hs.1 fun vs hvs => ?_
      have hv := val_requireField X v hv
      have hvs := flatten_args vs (hs.2 vs hvs)
      dsimp only
      split
      · exact fails_err (X.hetero h.1)
      · refine fails_logicalArray (X.type h.1 (arr_looks op)) op ?_ ?_ (fun r hr e => X.null (null_world (hvs r hr).1 e))
        · intro xs e x hx e2
          exact X.null (null_world (val_item hv e hx) e2)
        · rintro h1 ⟨xs, h2⟩
          refine X.coll h.1 ?_
          have := val_self hv
          cases v with
          | list ys => exact absurd rfl (h1 ys)
          | coll ys => exact this.1
          | arr _ _ => exact this
          | _ => cases h2
  | .unary t v, _, hp => by cases hp
  | .and_ l r, h, hp => by
    rw [Made] at h
    rw [evalBool]
    cases hp with
    | and_ pl pr =>
      refine fails_bind' (X_bool l h.2.1 pl) fun a => ?_
      cases a
      · exact fails_ok _
      · exact X_bool r h.2.2 pr
  | .or_ l r, h, hp => by
    rw [Made] at h
    rw [evalBool]
    cases hp with
    | or_ pl pr =>
      refine fails_bind' (X_bool l h.2.1 pl) fun a => ?_
      cases a
      · exact X_bool r h.2.2 pr
      · exact fails_ok _
  | .not_ l, h, hp => by
    rw [Made] at h
    rw [evalBool]
    refine fails_bind' ?_ fun a => fails_ok _
    cases hp with
    | not_ hp => exact X_bool l h.2 hp
    | @word t v hb =>
      rw [evalBool]
      exact X_unary X h.2 (hu hb) (hd hb t v h.2)
  | .field _, _, _ => by rw [evalBool]; exact fails_ok _
  | .arith _ _ _, _, _ => by rw [evalBool]; exact fails_ok _
  | .neg _, _, _ => by rw [evalBool]; exact fails_ok _
  | .func _ _, _, _ => by rw [evalBool]; exact fails_ok _
theorem X_items : (ns : List Node) → Mades S ns → (∀ n ∈ ns, n.isArithBase = false → Placed b n) →
    FailsBy P (evalItems env d ns) ∧ Yields (fun vs => ∀ v ∈ vs, Val W v) (evalItems env d ns)
  | [], _, _ => by
    rw [evalItems]
    exact ⟨fails_ok _, yields_ok (by simp)⟩
  | n :: ns, h, hp => by
    rw [Mades] at h
    have h1 := X_itemValue X (env := env) h.1 (fun h0 => X_bool n h.1 (hp n (by simp) h0))
    have h2 := X_items ns h.2 (fun m hm => hp m (by simp [hm]))
    rw [evalItems]
    refine ⟨fails_bind' h1.1 fun _ => fails_bind' h2.1 fun _ => fails_ok _,
      yields_bind h1.2 fun v hv => yields_bind h2.2 fun vs hvs => yields_ok ?_⟩
    intro w hw
    rcases List.mem_cons.1 hw with rfl | hw
    · exact hv
    · exact hvs w hw
end

end BoolParser
