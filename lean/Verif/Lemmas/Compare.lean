import Verif.Lemmas.Numbers
import Verif.Lemmas.Fragment
/-!
# Comparisons of two values
-/

namespace BoolParser
open Spec

/-! ### Values of expressions are never null -/

theorem walkKeys_nn (ks : List JStr) (d : Data) : walkKeys ks d ≠ .ok (some .null) := by
  induction ks generalizing d with
  | nil => intro h; cases h
  | cons k ks ih =>
    cases ks with
    | nil =>
      unfold walkKeys
      split
      · intro h; cases h
      · intro h; cases h
      · rename_i v hv _
        intro h
        injection h with h; injection h with h; exact absurd h hv
    | cons k2 ks =>
      unfold walkKeys
      split
      · exact ih _
      · intro h; cases h

theorem fieldValue_nn (f : JStr) (d : Data) : NN (Arith.fieldValue f d) := by
  unfold Arith.fieldValue
  intro v h
  have := walkKeys_nn (splitKey f) d
  unfold getValueFromMap at h
  cases hw : walkKeys (splitKey f) d with
  | error e => rw [hw] at h; cases h
  | ok o =>
    rw [hw] at h this
    cases o with
    | none => cases h
    | some w =>
      injection h with h; subst h
      intro e; subst e; exact this rfl

theorem value_nn (env : Env) (d : Data) : (e : Arith) → NN (e.value env d)
  | .field f => by rw [Arith.value]; exact fieldValue_nn f d
  | .lit l => by rw [Arith.value]; exact nn_ok l.value_ne_null
  | .group e => by rw [Arith.value]; exact value_nn env d e
  | .op o l r => by
    rw [Arith.value]
    exact nn_bind fun a => nn_bind fun b => nn_arithBinary _ _ _ _ _ _
  | .neg e => by
    rw [Arith.value]
    exact nn_bind fun a => nn_arithNegate _ _
  | .call f args => by
    rw [Arith.value]
    exact nn_bind fun vs => nn_callFn _ _ _ (flattenItems_types vs)

/-! ### A comparison as text -/

theorem rightValue_ok {env : Env} {d : Data} {r : Arith} {b : Value} (h : r.value env d = .ok b) :
    Cond.rightValue env d r = .ok b := by
  cases r with
  | field f =>
    rw [Arith.value, Arith.fieldValue] at h
    show (getValueFromMap f d >>= fun o => match o with
      | some v => pure v
      | none => throw .noSuchElement) = _
    cases hg : getValueFromMap f d with
    | error e => rw [hg] at h; cases h
    | ok o =>
      rw [hg] at h
      cases o with
      | none => cases h
      | some v => exact h
  | _ => exact h

theorem cmp_text {s : JStr} {o : CmpOp} {l r : Arith} (h : Writes s (.cmp o l r)) {env : Env} {d : Data}
    {df : Option JStr} (hdf : DefaultOk df) {a b : Value} (hl : l.value env d = .ok a)
    (hr : r.value env d = .ok b) : evaluate env s d df = .ofResult (Cond.compare o a b) := by
  rw [h.eval env d hdf, Cond.meaning, hl, rightValue_ok hr]; rfl

/-! ### The shape of a comparison -/

theorem compare_eqop {o : CmpOp} (ho : o = .eq ∨ o = .ne) (a b : Value) :
    Cond.compare o a b =
      (isValid (getDataType a) a >>= fun v =>
        if !v then .error .invalidDataType
        else (comparePrim (comparableType (getDataType a) (getDataType b)) a b).map o.test) := by
  unfold Cond.compare
  rw [logicalCmp_eq]
  rcases ho with rfl | rfl <;> rfl

theorem compare_ordop {o : CmpOp} (ho : o ≠ .eq) (ho' : o ≠ .ne) (a b : Value) :
    Cond.compare o a b =
      if getDataType a = .boolean then .error .invalidDataType
      else isValid (getDataType a) a >>= fun v =>
        if !v then .error .invalidDataType
        else if getDataType b = .boolean then .error .invalidDataType
        else validate a (getDataType a) b (getDataType b) >>= fun _ =>
          (comparePrim (orderType (getDataType a) (getDataType b)) a b).map o.test := by
  unfold Cond.compare
  rw [logicalCmp_eq]
  have e : ∀ t, (!o.allows t) = decide (t = .boolean) := by
    intro t
    cases o <;> first | exact absurd rfl ho | exact absurd rfl ho' | (cases t <;> rfl)
  rw [e, e]
  simp only [decide_eq_true_eq]
  cases o <;> first | exact absurd rfl ho | exact absurd rfl ho' | rfl

theorem compare_ne (a b : Value) : Cond.compare .ne a b = (Cond.compare .eq a b).map (!·) := by
  rw [compare_eqop (.inr rfl), compare_eqop (.inl rfl)]
  cases isValid (getDataType a) a with
  | error e => rfl
  | ok v =>
    simp only [ok_bind]
    cases v
    · rfl
    · simp only [Bool.not_true, Bool.false_eq_true, if_false]
      cases comparePrim (comparableType (getDataType a) (getDataType b)) a b <;> rfl

theorem compare_complement {o o' : CmpOp} (h : (o = .le ∧ o' = .gt) ∨ (o = .ge ∧ o' = .lt)) (a b : Value) :
    Cond.compare o a b = (Cond.compare o' a b).map (!·) := by
  have ht : ∀ x, o.test x = !o'.test x := by
    rcases h with ⟨rfl, rfl⟩ | ⟨rfl, rfl⟩ <;> intro x <;> cases x <;> rfl
  rw [compare_ordop (o := o) (by rcases h with ⟨rfl, rfl⟩ | ⟨rfl, rfl⟩ <;> decide)
      (by rcases h with ⟨rfl, rfl⟩ | ⟨rfl, rfl⟩ <;> decide),
    compare_ordop (o := o') (by rcases h with ⟨rfl, rfl⟩ | ⟨rfl, rfl⟩ <;> decide)
      (by rcases h with ⟨rfl, rfl⟩ | ⟨rfl, rfl⟩ <;> decide)]
  split
  · rfl
  · cases isValid (getDataType a) a with
    | error e => rfl
    | ok v =>
      simp only [ok_bind]
      cases v
      · rfl
      · simp only [Bool.not_true, Bool.false_eq_true, if_false]
        split
        · rfl
        · cases validate a (getDataType a) b (getDataType b) with
          | error e => rfl
          | ok u =>
            simp only [ok_bind]
            cases comparePrim (orderType (getDataType a) (getDataType b)) a b with
            | error e => rfl
            | ok x => exact congrArg _ (ht x)

/-! ### Antisymmetry -/

theorem cmpNats_swap (a b : List Nat) : cmpNats b a = (cmpNats a b).swap := by
  induction a generalizing b with
  | nil => cases b <;> rfl
  | cons x xs ih =>
    cases b with
    | nil => rfl
    | cons y ys =>
      simp only [cmpNats]
      rcases Nat.lt_trichotomy x y with h | h | h
      · rw [if_neg (by omega), if_pos h, if_pos h]; rfl
      · subst h; rw [if_neg (by omega), if_neg (by omega), if_neg (by omega), if_neg (by omega)]; exact ih ys
      · rw [if_pos h, if_neg (by omega), if_pos h]; rfl

theorem cmpStr_swap (a b : JStr) : cmpStr b a = (cmpStr a b).swap := cmpNats_swap _ _

theorem then_swap (a b : Ordering) : (a.then b).swap = a.swap.then b.swap := by
  cases a <;> cases b <;> rfl

theorem swap_swap (a : Ordering) : a.swap.swap = a := by cases a <;> rfl

theorem cmpNulls_swap (ys : List VItem) : VItem.cmpNulls ys = (VItem.cmpList ys []).swap := by
  induction ys with
  | nil => unfold VItem.cmpList; rfl
  | cons y ys ih => unfold VItem.cmpList VItem.cmpNulls; rw [then_swap, ih]

mutual
theorem cmpItem_swap : (x y : VItem) → VItem.cmpItem y x = (VItem.cmpItem x y).swap
  | .int a, .int b => by unfold VItem.cmpItem; exact Std.OrientedCmp.eq_swap
  | .int _, .str _ => by unfold VItem.cmpItem; rfl
  | .int _, .list _ => by unfold VItem.cmpItem; rfl
  | .str _, .int _ => by unfold VItem.cmpItem; rfl
  | .str a, .str b => by unfold VItem.cmpItem; exact cmpStr_swap _ _
  | .str _, .list _ => by unfold VItem.cmpItem; rfl
  | .list _, .int _ => by unfold VItem.cmpItem; rfl
  | .list _, .str _ => by unfold VItem.cmpItem; rfl
  | .list xs, .list ys => by unfold VItem.cmpItem; exact cmpList_swap xs ys
theorem cmpList_swap : (xs ys : List VItem) → VItem.cmpList ys xs = (VItem.cmpList xs ys).swap
  | [], ys => by
    have e : VItem.cmpList [] ys = VItem.cmpNulls ys := by unfold VItem.cmpList; rfl
    rw [e, cmpNulls_swap, swap_swap]
  | x :: xs, [] => by
    have e : VItem.cmpList [] (x :: xs) = VItem.cmpNulls (x :: xs) := by unfold VItem.cmpList; rfl
    rw [e, cmpNulls_swap]
  | x :: xs, y :: ys => by
    unfold VItem.cmpList
    rw [then_swap, cmpItem_swap x y, cmpList_swap xs ys]
end

theorem cmpVersion_swap (a b : JStr) : cmpVersion b a = (cmpVersion a b).swap := cmpList_swap _ _

theorem cmpI (a b : Int) : compare b a = (compare a b).swap := Std.OrientedCmp.eq_swap
theorem cmpN (a b : Nat) : compare b a = (compare a b).swap := Std.OrientedCmp.eq_swap

theorem cmpDate_swap (a b : Date) : cmpDate b a = (cmpDate a b).swap := by
  unfold cmpDate
  rw [then_swap, then_swap, ← cmpI, ← cmpN, ← cmpN]

theorem cmpDateTime_swap (a b : DateTime) : cmpDateTime b a = (cmpDateTime a b).swap := by
  unfold cmpDateTime
  rw [then_swap, then_swap, then_swap, then_swap, ← cmpDate_swap, ← cmpN, ← cmpN, ← cmpN, ← cmpN]

theorem Dec.cmp_swap (a b : Dec) : Dec.cmp b a = (Dec.cmp a b).swap := by
  unfold Dec.cmp
  simp only
  rw [max_comm b.scale a.scale]
  exact Std.OrientedCmp.eq_swap (cmp := (compare : Int → Int → Ordering))

/-- A coercion that, on a value that is not null, either succeeds or finds nothing. -/
def Tame {α : Type} (f : Value → Result (Option α)) : Prop := ∀ v, v ≠ .null → ∃ o, f v = .ok o

theorem toText_ok {v : Value} (h : v ≠ .null) : toText v = .ok v.text := by
  cases v <;> first | exact absurd rfl h | rfl

theorem tame_string : Tame asString := by
  intro v h; unfold asString; rw [toText_ok h]; exact ⟨_, rfl⟩
theorem tame_bool : Tame asBool := by
  intro v h; unfold asBool; split
  · exact ⟨_, rfl⟩
  · rw [toText_ok h]; exact ⟨_, rfl⟩
theorem tame_date : Tame asDate := by
  intro v h; unfold asDate; split
  · exact ⟨_, rfl⟩
  · rw [toText_ok h]; exact ⟨_, rfl⟩
theorem tame_datetime : Tame asDateTime := by
  intro v h; unfold asDateTime; split
  · exact ⟨_, rfl⟩
  · rw [toText_ok h]; exact ⟨_, rfl⟩
theorem tame_int : Tame asInt := by intro v h; unfold asInt; split <;> exact ⟨_, rfl⟩
theorem tame_long : Tame asLong := by intro v h; unfold asLong; split <;> exact ⟨_, rfl⟩
theorem tame_dec : Tame asDec := by intro v h; unfold asDec; split <;> exact ⟨_, rfl⟩
theorem tame_ver : Tame asVer := by intro v h; unfold asVer; split <;> exact ⟨_, rfl⟩

theorem both_tame {α : Type} {f : Value → Result (Option α)} (hf : Tame f) (c : α → α → Ordering)
    {a b : Value} (ha : a ≠ .null) (hb : b ≠ .null) :
    both f c a b = .error .invalidDataType ∨ ∃ x, both f c a b = .ok x := by
  obtain ⟨oa, ea⟩ := hf a ha
  obtain ⟨ob, eb⟩ := hf b hb
  unfold both
  rw [ea, eb]
  cases oa with
  | none => exact .inl rfl
  | some x =>
    cases ob with
    | none => exact .inl rfl
    | some y => exact .inr ⟨_, rfl⟩

theorem both_swap {α : Type} {f : Value → Result (Option α)} (hf : Tame f) {c : α → α → Ordering}
    (hc : ∀ x y, c y x = (c x y).swap) {a b : Value} (ha : a ≠ .null) (hb : b ≠ .null) :
    both f c b a = (both f c a b).map Ordering.swap := by
  obtain ⟨oa, ea⟩ := hf a ha
  obtain ⟨ob, eb⟩ := hf b hb
  unfold both
  rw [ea, eb]
  cases oa with
  | none => cases ob <;> rfl
  | some x =>
    cases ob with
    | none => rfl
    | some y => exact congrArg Except.ok (hc x y)

theorem comparePrim_swap (t : DataType) {a b : Value} (ha : a ≠ .null) (hb : b ≠ .null) :
    comparePrim t b a = (comparePrim t a b).map Ordering.swap := by
  cases t <;> unfold comparePrim
  · exact both_swap tame_string cmpStr_swap ha hb
  · exact both_swap tame_int (fun x y => Std.OrientedCmp.eq_swap) ha hb
  · exact both_swap tame_long (fun x y => Std.OrientedCmp.eq_swap) ha hb
  · exact both_swap tame_dec Dec.cmp_swap ha hb
  · exact both_swap tame_ver cmpVersion_swap ha hb
  · exact both_swap tame_bool (fun x y => Std.OrientedCmp.eq_swap) ha hb
  · exact both_swap tame_date cmpDate_swap ha hb
  · exact both_swap tame_datetime cmpDateTime_swap ha hb

theorem comparePrim_tame (t : DataType) {a b : Value} (ha : a ≠ .null) (hb : b ≠ .null) :
    comparePrim t a b = .error .invalidDataType ∨ ∃ x, comparePrim t a b = .ok x := by
  cases t <;> unfold comparePrim
  · exact both_tame tame_string _ ha hb
  · exact both_tame tame_int _ ha hb
  · exact both_tame tame_long _ ha hb
  · exact both_tame tame_dec _ ha hb
  · exact both_tame tame_ver _ ha hb
  · exact both_tame tame_bool _ ha hb
  · exact both_tame tame_date _ ha hb
  · exact both_tame tame_datetime _ ha hb

theorem isValid_tame (t : DataType) {v : Value} (h : v ≠ .null) : ∃ b, isValid t v = .ok b := by
  cases t <;> unfold isValid
  · exact ⟨_, rfl⟩
  · obtain ⟨o, e⟩ := tame_int v h; rw [e]; exact ⟨_, rfl⟩
  · obtain ⟨o, e⟩ := tame_long v h; rw [e]; exact ⟨_, rfl⟩
  · obtain ⟨o, e⟩ := tame_dec v h; rw [e]; exact ⟨_, rfl⟩
  · obtain ⟨o, e⟩ := tame_ver v h; rw [e]; exact ⟨_, rfl⟩
  · obtain ⟨o, e⟩ := tame_bool v h; rw [e]; exact ⟨_, rfl⟩
  · obtain ⟨o, e⟩ := tame_date v h; rw [e]; exact ⟨_, rfl⟩
  · obtain ⟨o, e⟩ := tame_datetime v h; rw [e]; exact ⟨_, rfl⟩

theorem orderType_comm (s t : DataType) : orderType s t = orderType t s := by
  cases s <;> cases t <;> rfl

theorem comparableType_comm (s t : DataType) : comparableType s t = comparableType t s := by
  cases s <;> cases t <;> rfl

theorem validate_comm {a b : Value} (ha : a ≠ .null) (hb : b ≠ .null) (s t : DataType) :
    validate a s b t = validate b t a s := by
  unfold validate
  obtain ⟨x, ex⟩ := isValid_tame t ha
  obtain ⟨y, ey⟩ := isValid_tame s hb
  rw [ex, ey]
  cases s.numeric <;> cases t.numeric <;> first | rfl | (cases x <;> cases y <;> rfl)

/-- A value that its own data type rejects (NaN, an infinity) is a floating point number. -/
theorem own_type {v : Value} (h : v ≠ .null) :
    isValid (getDataType v) v = .ok true ∨
      (getDataType v = .decimal ∧ asDec v = .ok none ∧ isValid (getDataType v) v = .ok false) := by
  cases v with
  | null => exact absurd rfl h
  | dbl t =>
    show isValid .decimal (.dbl t) = _ ∨ _
    unfold isValid
    simp only [asDec, Value.text, ok_bind]
    cases he : Dec.parse t with
    | none => exact .inr ⟨rfl, rfl, by simp only [getDataType, asDec, Value.text, he]; rfl⟩
    | some d => exact .inl rfl
  | flt t =>
    show isValid .decimal (.flt t) = _ ∨ _
    unfold isValid
    simp only [asDec, Value.text, ok_bind]
    cases he : Dec.parse t with
    | none => exact .inr ⟨rfl, rfl, by simp only [getDataType, asDec, Value.text, he]; rfl⟩
    | some d => exact .inl rfl
  | str s =>
    left
    unfold getDataType
    simp only
    cases h1 : parseDateTime s with
    | some t => simp only [isValid, asDateTime, toText, Value.text, ok_bind, h1]; rfl
    | none =>
      cases h2 : parseDate s with
      | some t => simp only [isValid, asDate, toText, Value.text, ok_bind, h2]; rfl
      | none => rfl
  | _ => exact .inl rfl

/-- A comparison in the decimal type fails when an operand is not a number. -/
theorem both_none_left {α : Type} {f : Value → Result (Option α)} (c : α → α → Ordering) {a : Value}
    (b : Value) (h : f a = .ok none) : both f c a b = .error .invalidDataType := by
  unfold both; rw [h]; rfl

theorem orderType_decimal {t : DataType} (h : t ≠ .boolean) (hn : t.numeric = true) : orderType .decimal t = .decimal := by
  cases t <;> first | rfl | cases hn

theorem orderType_decimal' (t : DataType) : orderType .decimal t = .decimal := by
  cases t <;> rfl

/-- The order comparisons, with the checks in a symmetric form. -/
theorem compare_ord_sym {o : CmpOp} (ho : o ≠ .eq) (ho' : o ≠ .ne) {a b : Value} (ha : a ≠ .null) (hb : b ≠ .null) :
    Cond.compare o a b =
      if getDataType a = .boolean ∨ getDataType b = .boolean then .error .invalidDataType
      else validate a (getDataType a) b (getDataType b) >>= fun _ =>
          (comparePrim (orderType (getDataType a) (getDataType b)) a b).map o.test := by
  rw [compare_ordop ho ho']
  have hown := own_type ha
  obtain ⟨x, ex⟩ := isValid_tame (getDataType a) ha
  obtain ⟨y, ey⟩ := isValid_tame .decimal hb
  generalize hta : getDataType a = ta at *
  generalize getDataType b = tb at *
  by_cases h1 : ta = .boolean
  · simp [h1]
  by_cases h2 : tb = .boolean
  · rw [ex]; cases x <;> simp [h1, h2, ok_bind]
  rcases hown with h | ⟨ht, hd, h⟩
  · rw [h]; simp [h1, h2, ok_bind]
  · rw [h, ht, orderType_decimal']
    simp only [comparePrim, both_none_left _ b hd, h2, ok_bind]
    simp only [Bool.not_false, if_true]
    have : validate a .decimal b tb = .ok () ∨ validate a .decimal b tb = .error .invalidDataType := by
      unfold validate
      rw [ey]
      cases tb.numeric
      · cases y
        · exact .inr rfl
        · exact .inl rfl
      · exact .inl rfl
    rcases this with e | e <;> rw [e] <;> rfl

theorem compare_dual {o o' : CmpOp} (h : (o = .lt ∧ o' = .gt) ∨ (o = .le ∧ o' = .ge)) {a b : Value}
    (ha : a ≠ .null) (hb : b ≠ .null) : Cond.compare o a b = Cond.compare o' b a := by
  have ht : ∀ x : Ordering, o.test x = o'.test x.swap := by
    rcases h with ⟨rfl, rfl⟩ | ⟨rfl, rfl⟩ <;> intro x <;> cases x <;> rfl
  rw [compare_ord_sym (o := o) (by rcases h with ⟨rfl, rfl⟩ | ⟨rfl, rfl⟩ <;> decide)
      (by rcases h with ⟨rfl, rfl⟩ | ⟨rfl, rfl⟩ <;> decide) ha hb,
    compare_ord_sym (o := o') (by rcases h with ⟨rfl, rfl⟩ | ⟨rfl, rfl⟩ <;> decide)
      (by rcases h with ⟨rfl, rfl⟩ | ⟨rfl, rfl⟩ <;> decide) hb ha,
    validate_comm ha hb, orderType_comm, comparePrim_swap _ ha hb]
  simp only [or_comm]
  split
  · rfl
  · cases validate b (getDataType b) a (getDataType a) with
    | error e => rfl
    | ok u =>
      simp only [ok_bind]
      cases comparePrim (orderType (getDataType b) (getDataType a)) a b with
      | error e => rfl
      | ok x => exact congrArg Except.ok (ht x)

/-- `=` is symmetric. -/
theorem compare_eq_comm {o : CmpOp} (ho : o = .eq ∨ o = .ne) {a b : Value} (ha : a ≠ .null) (hb : b ≠ .null)
    (hva : isValid (getDataType a) a = .ok true) (hvb : isValid (getDataType b) b = .ok true) :
    Cond.compare o a b = Cond.compare o b a := by
  have ht : ∀ x : Ordering, o.test x = o.test x.swap := by
    rcases ho with rfl | rfl <;> intro x <;> cases x <;> rfl
  rw [compare_eqop ho, compare_eqop ho, hva, hvb, ok_bind, ok_bind, comparableType_comm, comparePrim_swap _ hb ha]
  simp only [Bool.not_true, Bool.false_eq_true, if_false]
  cases comparePrim (comparableType (getDataType b) (getDataType a)) b a with
  | error e => rfl
  | ok x => exact congrArg Except.ok (ht x).symm

end BoolParser
