import Verif.Lemmas.Wording
import Verif.Lemmas.Lists
/-!
# Messages of comparisons, IN and CONTAINS (for C101)
-/

namespace BoolParser
open Spec

variable {α β : Type} {x : Exn} {t : JStr}

theorem needX_says {u : DataType} {v : Value} {r : Result (Option α)} :
    SaysX (needX u v r) x t ↔ r = .ok none ∧ x = .invalidDataType ∧ t = refusedText v u := by
  match r with
  | .ok (some a) => exact ⟨fun h => (by cases h), fun h => (by cases h.1)⟩
  | .ok none =>
    refine Iff.trans says_tell ?_
    simp [valueText, refusedText, name_type]
  | .error e => exact ⟨fun h => (by cases h), fun h => (by cases h.1)⟩

theorem bothX_says {u : DataType} {f : Value → Result (Option α)} {c : α → α → Ordering} {a b : Value}
    (h : ∀ v, isValid u v = (f v >>= fun r => pure r.isSome)) :
    SaysX (bothX u f c a b) x t ↔ x = .invalidDataType ∧ EitherRefused u a b t := by
  have hf : ∀ v, Refused u v ↔ f v = .ok none := by
    intro v
    unfold Refused
    rw [h]
    match f v with
    | .ok (some a) => exact ⟨fun h => (by cases h), fun h => (by cases h)⟩
    | .ok none => exact ⟨fun _ => rfl, fun _ => rfl⟩
    | .error e => exact ⟨fun h => (by cases h), fun h => (by cases h)⟩
  have ht : ∀ v, isValid u v = .ok true ↔ ∃ y, f v = .ok (some y) := by
    intro v
    rw [h]
    match f v with
    | .ok (some a) => exact ⟨fun h => ⟨a, rfl⟩, fun h => rfl⟩
    | .ok none => exact ⟨fun h => (by cases h), fun ⟨y, h⟩ => (by cases h)⟩
    | .error e => exact ⟨fun h => (by cases h), fun ⟨y, h⟩ => (by cases h)⟩
  unfold bothX
  rw [says_bind, needX_says]
  simp only [needX_same]
  constructor
  · rintro (⟨h1, rfl, rfl⟩ | ⟨y, hy, h2⟩)
    · exact ⟨rfl, .first ((hf a).2 h1)⟩
    · have hy : f a = .ok (some y) := by
        match e : f a, hy with
        | .ok (some z), hy => cases hy; rfl
        | .ok none, hy => cases hy
        | .error e, hy => cases hy
      rw [says_bind, needX_says] at h2
      rcases h2 with ⟨h3, rfl, rfl⟩ | ⟨z, _, hz⟩
      · exact ⟨rfl, .second ((ht a).2 ⟨y, hy⟩) ((hf b).2 h3)⟩
      · cases hz
  · rintro ⟨rfl, h⟩
    cases h with
    | first h => exact .inl ⟨(hf a).1 h, rfl, rfl⟩
    | second h h' =>
      obtain ⟨y, hy⟩ := (ht a).1 h
      refine .inr ⟨y, by rw [hy]; rfl, ?_⟩
      rw [says_bind, needX_says]
      exact .inl ⟨(hf b).1 h', rfl, rfl⟩

theorem either_string {a b : Value} : ¬ EitherRefused .string a b t := by
  intro h
  cases h with
  | first h => cases h
  | second _ h => cases h

theorem asString_some (v : Value) : asString v ≠ .ok none := by cases v <;> (intro h; cases h)

theorem comparePrimX_says (u : DataType) (a b : Value) :
    SaysX (comparePrimX u a b) x t ↔ x = .invalidDataType ∧ EitherRefused u a b t := by
  cases u with
  | string =>
    show SaysX (bothX .string asString cmpStr a b) x t ↔ _
    unfold bothX
    rw [says_bind, needX_says]
    constructor
    · rintro (⟨h, _⟩ | ⟨y, _, h⟩)
      · exact absurd h (asString_some a)
      · rw [says_bind, needX_says] at h
        rcases h with ⟨h, _⟩ | ⟨z, _, h⟩
        · exact absurd h (asString_some b)
        · cases h
    · rintro ⟨_, h⟩; exact absurd h either_string
  | integer => exact bothX_says fun _ => rfl
  | long => exact bothX_says fun _ => rfl
  | decimal => exact bothX_says fun _ => rfl
  | version => exact bothX_says fun _ => rfl
  | boolean => exact bothX_says fun _ => rfl
  | date => exact bothX_says fun _ => rfl
  | datetime => exact bothX_says fun _ => rfl

theorem later_self (s u : DataType) : LaterType s u (comparableType s u) := by
  unfold LaterType
  cases s <;> cases u <;> decide

theorem later_iff {s u w : DataType} : LaterType s u w ↔ w = comparableType s u := by
  constructor
  · intro h
    rcases h with ⟨rfl, h⟩ | ⟨rfl, h⟩
    · revert h; cases w <;> cases u <;> decide
    · revert h; cases s <;> cases w <;> decide
  · rintro rfl; exact later_self s u

theorem evalEqX_says (op : CmpOp) (a : Value) (ta : DataType) (b : Value) (tb : DataType) :
    SaysX (evalEqX op a ta b tb) x t ↔ x = .invalidDataType ∧ ∃ u, LaterType ta tb u ∧ EitherRefused u a b t := by
  unfold evalEqX
  rw [says_bind, comparePrimX_says]
  simp only [says_pure, and_false, exists_false, or_false, later_iff]
  simp

theorem numericType_iff (u : DataType) : NumericType u ↔ u.numeric = true := by
  unfold NumericType
  cases u <;> decide

theorem ordering4_iff (o : CmpOp) : Ordering4 o ↔ o ≠ .eq ∧ o ≠ .ne := by
  unfold Ordering4
  cases o <;> decide

theorem allows_iff (o : CmpOp) (u : DataType) : (!o.allows u) = true ↔ Ordering4 o ∧ u = .boolean := by
  rw [ordering4_iff]
  cases o <;> cases u <;> decide

theorem nan_type {v : Value} (h : NotANumber v) : getDataType v = .decimal := by
  cases v <;> first | rfl | exact h.elim

theorem own_refused {v : Value} : Refused (getDataType v) v ↔ NotANumber v := by
  unfold Refused
  rcases own_says v with ⟨h, h', _⟩ | ⟨h, h'⟩
  · simp [h, h']
  · rw [h']; simp [h]

theorem evalOrdX_says {o : CmpOp} (ho : Ordering4 o) {a b : Value} (ha : getDataType a ≠ .boolean) (hb : getDataType b ≠ .boolean)
    (hn : ¬ NotANumber a) :
    SaysX (evalOrdX o a (getDataType a) b (getDataType b)) x t ↔ x = .invalidDataType ∧ TestSays o a b t := by
  unfold evalOrdX
  rw [says_bind]
  simp only [says_bind, says_pure, and_false, exists_false, or_false, comparePrimX_says]
  rw [validateX_same]
  have nt := numericType_iff
  by_cases h1 : NumericType (getDataType a) <;> by_cases h2 : NumericType (getDataType b)
  · have e1 := (nt _).1 h1
    have e2 := (nt _).1 h2
    have ev : validateX a (getDataType a) b (getDataType b) = .ok () := by rw [validateX_eq, e1, e2]
    have ev' : validate a (getDataType a) b (getDataType b) = .ok () := by rw [validate_eq, e1, e2]
    have eo : orderType (getDataType a) (getDataType b) = comparableType (getDataType a) (getDataType b) := by
      rw [orderType, e1, e2]; rfl
    rw [ev, ev', says_ok, false_or, eo]
    constructor
    · rintro ⟨_, _, rfl, h⟩
      exact ⟨rfl, .order ho hn ha hb ⟨fun _ => h2, fun _ => h1⟩ (later_self _ _) h⟩
    · rintro ⟨rfl, h⟩
      refine ⟨(), rfl, rfl, ?_⟩
      cases h with
      | left _ h => exact absurd h ha
      | value h => exact absurd h hn
      | right _ _ _ h => exact absurd h hb
      | equal h => exact absurd ho h
      | leftText _ _ _ h => exact absurd h1 h
      | rightText _ _ _ _ h => exact absurd h2 h
      | rightNumber _ _ h => exact absurd h1 h
      | order _ _ _ _ _ hu h => rw [later_iff] at hu; subst hu; exact h
  · have e1 := (nt _).1 h1
    have e2 : (getDataType b).numeric = false := by rw [← Bool.not_eq_true]; exact fun h => h2 ((nt _).2 h)
    have ev : validateX a (getDataType a) b (getDataType b) = bare (isValid (getDataType a) b) >>= fun c =>
        if !c then tell .invalidDataType (incompatibleText (getDataType a) (getDataType b)) else .ok () := by
      rw [validateX_eq, e1, e2]
    have ev' : validate a (getDataType a) b (getDataType b) = isValid (getDataType a) b >>= fun c =>
        if !c then .error .invalidDataType else .ok () := by rw [validate_eq, e1, e2]
    have eo : orderType (getDataType a) (getDataType b) = getDataType a := by rw [orderType, e1, e2]; rfl
    rw [ev, ev', eo, says_bare_bind]
    constructor
    · rintro (⟨c, hc, h⟩ | ⟨_, hv, rfl, h⟩)
      · cases c with
        | true => cases h
        | false =>
          obtain ⟨rfl, rfl⟩ := says_tell.1 h
          refine ⟨rfl, ?_⟩
          rw [incompatibleText, name_type, name_type]
          exact .rightText ho hn hb h1 h2 hc
      · exfalso
        have hv : isValid (getDataType a) b = .ok true := by
          cases e : isValid (getDataType a) b with
          | error _ => rw [e] at hv; cases hv
          | ok c =>
            cases c with
            | true => rfl
            | false => rw [e] at hv; cases hv
        cases h with
        | first h => exact hn (own_refused.1 h)
        | second _ h => rw [Refused, hv] at h; cases h
    · rintro ⟨rfl, h⟩
      left
      cases h with
      | left _ h => exact absurd h ha
      | value h => exact absurd h hn
      | right _ _ _ h => exact absurd h hb
      | equal h => exact absurd ho h
      | leftText _ _ _ h => exact absurd h1 h
      | rightText _ _ _ _ _ h =>
        refine ⟨false, h, ?_⟩
        rw [incompatibleText, name_type, name_type]; rfl
      | rightNumber _ _ h => exact absurd h1 h
      | order _ _ _ _ hi => exact absurd (hi.1 h1) h2
  · have e1 : (getDataType a).numeric = false := by rw [← Bool.not_eq_true]; exact fun h => h1 ((nt _).2 h)
    have e2 := (nt _).1 h2
    have ev : validateX a (getDataType a) b (getDataType b) = bare (isValid (getDataType b) a) >>= fun c =>
        if !c then tell .invalidDataType (incompatibleText (getDataType a) (getDataType b)) else .ok () := by
      rw [validateX_eq, e1, e2]
    have ev' : validate a (getDataType a) b (getDataType b) = isValid (getDataType b) a >>= fun c =>
        if !c then .error .invalidDataType else .ok () := by rw [validate_eq, e1, e2]
    have eo : orderType (getDataType a) (getDataType b) = getDataType b := by rw [orderType, e1, e2]; rfl
    rw [ev, ev', eo, says_bare_bind]
    constructor
    · rintro (⟨c, hc, h⟩ | ⟨_, hv, rfl, h⟩)
      · cases c with
        | true => cases h
        | false =>
          obtain ⟨rfl, rfl⟩ := says_tell.1 h
          refine ⟨rfl, ?_⟩
          rw [incompatibleText, name_type, name_type]
          exact .leftText ho ha hb h1 h2 hc
      · have hv : isValid (getDataType b) a = .ok true := by
          cases e : isValid (getDataType b) a with
          | error _ => rw [e] at hv; cases hv
          | ok c =>
            cases c with
            | true => rfl
            | false => rw [e] at hv; cases hv
        cases h with
        | first h => rw [Refused, hv] at h; cases h
        | second _ h =>
          have hnb := own_refused.1 h
          have := nan_type hnb
          rw [this] at hv ⊢
          exact ⟨rfl, .rightNumber ho ha h1 hv hnb⟩
    · rintro ⟨rfl, h⟩
      cases h with
      | left _ h => exact absurd h ha
      | value h => exact absurd h hn
      | right _ _ _ h => exact absurd h hb
      | equal h => exact absurd ho h
      | leftText _ _ _ _ _ h =>
        refine .inl ⟨false, h, ?_⟩
        rw [incompatibleText, name_type, name_type]; rfl
      | rightText _ _ _ h => exact absurd h h1
      | rightNumber _ _ _ h hnb =>
        have hd := nan_type hnb
        rw [hd]
        refine .inr ⟨(), by rw [h]; rfl, rfl, .second h ?_⟩
        have := own_refused.2 hnb
        rwa [hd] at this
      | order _ _ _ _ hi => exact absurd (hi.2 h2) h1
  · have e1 : (getDataType a).numeric = false := by rw [← Bool.not_eq_true]; exact fun h => h1 ((nt _).2 h)
    have e2 : (getDataType b).numeric = false := by rw [← Bool.not_eq_true]; exact fun h => h2 ((nt _).2 h)
    have ev : validateX a (getDataType a) b (getDataType b) = .ok () := by rw [validateX_eq, e1, e2]
    have ev' : validate a (getDataType a) b (getDataType b) = .ok () := by rw [validate_eq, e1, e2]
    have eo : orderType (getDataType a) (getDataType b) = comparableType (getDataType a) (getDataType b) := by
      rw [orderType, e1, e2]; rfl
    rw [ev, ev', says_ok, false_or, eo]
    constructor
    · rintro ⟨_, _, rfl, h⟩
      exact ⟨rfl, .order ho hn ha hb ⟨fun h => absurd h h1, fun h => absurd h h2⟩ (later_self _ _) h⟩
    · rintro ⟨rfl, h⟩
      refine ⟨(), rfl, rfl, ?_⟩
      cases h with
      | left _ h => exact absurd h ha
      | value h => exact absurd h hn
      | right _ _ _ h => exact absurd h hb
      | equal h => exact absurd ho h
      | leftText _ _ _ _ h => exact absurd h h2
      | rightText _ _ _ h => exact absurd h h1
      | rightNumber _ _ _ _ h => rw [nan_type h] at h2; exact absurd (by decide) h2
      | order _ _ _ _ _ hu h => rw [later_iff] at hu; subst hu; exact h

theorem logicalCmpX_says (o : CmpOp) (a b : Value) :
    SaysX (logicalCmpX o a (getDataType a) b (getDataType b)) x t ↔ x = .invalidDataType ∧ TestSays o a b t := by
  rw [logicalCmpX_eq]
  simp only [leftTypeText, rightTypeText, operandText, name_test, name_type]
  by_cases h1 : Ordering4 o ∧ getDataType a = .boolean
  · rw [if_pos ((allows_iff o _).2 h1), h1.2]
    refine Iff.trans says_tell ⟨?_, ?_⟩
    · rintro ⟨rfl, rfl⟩; exact ⟨rfl, .left h1.1 h1.2⟩
    · rintro ⟨rfl, h⟩
      cases h with
      | left => exact ⟨rfl, rfl⟩
      | value h => have := nan_type h; rw [h1.2] at this; cases this
      | right _ h => exact absurd h1.2 h
      | equal h => exact absurd h1.1 h
      | leftText _ h => exact absurd h1.2 h
      | rightText _ _ _ h => rw [h1.2] at h; exact absurd h (by decide)
      | rightNumber _ h => exact absurd h1.2 h
      | order _ _ h => exact absurd h1.2 h
  rw [if_neg (fun h => h1 ((allows_iff o _).1 h))]
  rcases own_says a with ⟨na, va, da⟩ | ⟨na, va⟩
  · rw [va]
    refine Iff.trans says_tell ⟨?_, ?_⟩
    · rintro ⟨rfl, rfl⟩; exact ⟨rfl, .value na⟩
    · rintro ⟨rfl, h⟩
      cases h with
      | left h h' => exact absurd ⟨h, h'⟩ h1
      | value => exact ⟨rfl, rfl⟩
      | right _ _ h => exact absurd na h
      | equal _ h => exact absurd na h
      | leftText _ _ _ h => rw [da] at h; exact absurd (by decide) h
      | rightText _ h => exact absurd na h
      | rightNumber _ _ h => rw [da] at h; exact absurd (by decide) h
      | order _ h => exact absurd na h
  rw [va]
  by_cases h2 : Ordering4 o ∧ getDataType b = .boolean
  · refine Iff.trans (b := SaysX (tell .invalidDataType (j!"Invalid right operand data type " ++ typeText .boolean ++
      j!" for operator " ++ testText o) : Told Bool) x t) ?_ (Iff.trans says_tell ⟨?_, ?_⟩)
    · show SaysX (if (!o.allows (getDataType b)) = true then _ else _) x t ↔ _
      rw [if_pos ((allows_iff o _).2 h2), h2.2]
    · rintro ⟨rfl, rfl⟩; exact ⟨rfl, .right h2.1 (fun h => h1 ⟨h2.1, h⟩) na h2.2⟩
    · rintro ⟨rfl, h⟩
      cases h with
      | left h h' => exact absurd ⟨h, h'⟩ h1
      | value h => exact absurd h na
      | right => exact ⟨rfl, rfl⟩
      | equal h => exact absurd h2.1 h
      | leftText _ _ h => exact absurd h2.2 h
      | rightText _ _ h => exact absurd h2.2 h
      | rightNumber _ _ _ _ h => have := nan_type h; rw [h2.2] at this; cases this
      | order _ _ _ h => exact absurd h2.2 h
  · refine Iff.trans (b := SaysX (evalCmpOpX o a (getDataType a) b (getDataType b)) x t) ?_ ?_
    · show SaysX (if (!o.allows (getDataType b)) = true then _ else _) x t ↔ _
      rw [if_neg (fun h => h2 ((allows_iff o _).1 h))]
    · by_cases ho : Ordering4 o
      · have : evalCmpOpX o a (getDataType a) b (getDataType b) = evalOrdX o a (getDataType a) b (getDataType b) := by
          rw [ordering4_iff] at ho
          cases o <;> first | rfl | exact absurd rfl ho.1 | exact absurd rfl ho.2
        rw [this]
        exact evalOrdX_says ho (fun h => h1 ⟨ho, h⟩) (fun h => h2 ⟨ho, h⟩) na
      · have : evalCmpOpX o a (getDataType a) b (getDataType b) = evalEqX o a (getDataType a) b (getDataType b) := by
          rw [ordering4_iff] at ho
          cases o <;> first | rfl | exact absurd ⟨by decide, by decide⟩ ho
        rw [this, evalEqX_says]
        constructor
        · rintro ⟨rfl, u, hu, h⟩; exact ⟨rfl, .equal ho na hu h⟩
        · rintro ⟨rfl, h⟩
          refine ⟨rfl, ?_⟩
          cases h with
          | left h => exact absurd h ho
          | value h => exact absurd h na
          | right h => exact absurd h ho
          | equal _ _ hu h => exact ⟨_, hu, h⟩
          | leftText h => exact absurd h ho
          | rightText h => exact absurd h ho
          | rightNumber h => exact absurd h ho
          | order h => exact absurd h ho

/-! ### IN and CONTAINS -/

theorem anyMX_says {f : α → Told Bool} {g : α → Result Bool} (hg : ∀ y, untold (f y) = g y) : (ys : List α) →
    (SaysX (anyMX f ys) x t ↔ ∃ before y after, ys = before ++ y :: after ∧ (∀ z ∈ before, g z = .ok false) ∧ SaysX (f y) x t)
  | [] => by
    refine ⟨fun h => (by cases h), ?_⟩
    rintro ⟨before, y, after, h, _⟩
    cases before <;> cases h
  | y :: ys => by
    rw [anyMX, says_bind, hg]
    constructor
    · rintro (h | ⟨b, hb, h⟩)
      · exact ⟨[], y, ys, rfl, by simp, h⟩
      · cases b with
        | true => cases h
        | false =>
          obtain ⟨before, z, after, rfl, h1, h2⟩ := (anyMX_says hg ys).1 h
          refine ⟨y :: before, z, after, rfl, ?_, h2⟩
          intro w hw
          rcases List.mem_cons.1 hw with rfl | hw
          · exact hb
          · exact h1 w hw
    · rintro ⟨before, z, after, h, h1, h2⟩
      cases before with
      | nil => cases h; exact .inl h2
      | cons w ws =>
        cases h
        exact .inr ⟨false, h1 y (by simp), (anyMX_says hg _).2 ⟨ws, z, after, rfl, fun v hv => h1 v (by simp [hv]), h2⟩⟩

theorem anyMX_map {γ : Type} (f : α → Told Bool) (g : γ → α) : (ys : List γ) → anyMX f (ys.map g) = anyMX (fun y => f (g y)) ys
  | [] => rfl
  | y :: ys => by rw [List.map_cons, anyMX, anyMX, anyMX_map f g ys]

theorem compare_eq_valid {v : Value} (h : ¬ NotANumber v) (z : Value) :
    Cond.compare .eq v z = evalEq .eq v (getDataType v) z (getDataType z) := by
  rcases own_says v with ⟨h', _⟩ | ⟨_, hv⟩
  · exact absurd h' h
  · rw [Cond.compare, logicalCmp_eq, hv]; rfl

theorem logicalInX_says (v : Value) (ws : List Value) :
    SaysX (logicalInX v (getDataType v) (typed ws)) x t ↔ x = .invalidDataType ∧ InSays v ws t := by
  rw [logicalInX_eq]
  rcases own_says v with ⟨nv, vv, _⟩ | ⟨nv, vv⟩
  · rw [vv]
    refine Iff.trans says_tell ⟨?_, ?_⟩
    · rintro ⟨rfl, rfl⟩; exact ⟨rfl, .value nv⟩
    · rintro ⟨rfl, h⟩
      cases h with
      | value => exact ⟨rfl, rfl⟩
      | item h => exact absurd nv h
  · rw [vv]
    show SaysX (anyMX (fun r : Typed => evalEqX .eq v (getDataType v) r.1 r.2) (ws.map fun w => (w, getDataType w))) x t ↔ _
    rw [anyMX_map, anyMX_says (g := fun z => Cond.compare .eq v z) (fun z => by
      rw [evalEqX_same, compare_eq_valid nv])]
    constructor
    · rintro ⟨before, w, after, rfl, h1, h2⟩
      obtain ⟨rfl, u, hu, h⟩ := (evalEqX_says _ _ _ _ _).1 h2
      exact ⟨rfl, .item nv rfl h1 hu h⟩
    · rintro ⟨rfl, h⟩
      cases h with
      | value h => exact absurd h nv
      | item _ h1 h2 hu h => exact ⟨_, _, _, h1, h2, (evalEqX_says _ _ _ _ _).2 ⟨rfl, _, hu, h⟩⟩

theorem anyMX_quiet {f : α → Told Bool} (h : ∀ y, ¬ SaysX (f y) x t) : (ys : List α) → ¬ SaysX (anyMX f ys) x t
  | [] => by intro h; cases h
  | y :: ys => by
    rw [anyMX, says_bind]
    rintro (h' | ⟨b, _, h'⟩)
    · exact h y h'
    · cases b with
      | true => cases h'
      | false => exact anyMX_quiet h ys h'

theorem allMX_quiet {f : α → Told Bool} (h : ∀ y, ¬ SaysX (f y) x t) : (ys : List α) → ¬ SaysX (allMX f ys) x t
  | [] => by intro h; cases h
  | y :: ys => by
    rw [allMX, says_bind]
    rintro (h' | ⟨b, _, h'⟩)
    · exact h y h'
    · cases b with
      | true => exact allMX_quiet h ys h'
      | false => cases h'

theorem comparable_string (u : DataType) : comparableType u .string = .string := by cases u <;> rfl

theorem evalInX_string (l : Value) (lt : DataType) (zs : List Value) :
    ¬ SaysX (evalInX l lt (zs.map fun z => (z, DataType.string))) x t := by
  unfold evalInX
  rw [anyMX_map]
  refine anyMX_quiet (fun z h => ?_) zs
  obtain ⟨_, u, hu, h⟩ := (evalEqX_says _ _ _ _ _).1 h
  rw [later_iff, comparable_string] at hu
  subst hu
  exact either_string h

theorem valid_strings : (zs : List Value) → allM' (isValid .string) zs = .ok true
  | [] => rfl
  | z :: zs => by
    rw [allM']
    exact valid_strings zs

theorem logicalArrayX_says (o : ArrOp) (v : Value) (rs : List Typed) :
    SaysX (logicalArrayX o v (getDataType v) rs) x t ↔ x = .invalidDataType ∧ (∀ zs, v ≠ .list zs) ∧ (∀ zs, v ≠ .coll zs) ∧
      (∀ s zs, v ≠ .arr s zs) ∧ t = j!"Validation failed for the operator " ++ arrText o ++ j!" for the operand " ++ v.text := by
  rw [logicalArrayX_eq]
  simp only [operandText, name_arr]
  cases v with
  | list zs =>
    refine ⟨fun h => ?_, fun h => absurd rfl (h.2.1 zs)⟩
    exfalso
    have e : isValidList (getDataType (.list zs)) (.list zs) = .ok true := valid_strings zs
    rw [e] at h
    have h : SaysX (evalArrayX o (.list zs) .string rs) x t := h
    unfold evalArrayX at h
    have e : isValidList .string (.list zs) = .ok true := valid_strings zs
    rw [e] at h
    cases o with
    | containsAll => exact allMX_quiet (fun r => evalInX_string _ _ _) rs h
    | containsAny => exact anyMX_quiet (fun r => evalInX_string _ _ _) rs h
  | coll zs =>
    refine ⟨fun h => ?_, fun h => absurd rfl (h.2.2.1 zs)⟩
    exfalso
    have e : isValidList (getDataType (.coll zs)) (.coll zs) = .ok true := valid_strings zs
    rw [e] at h
    have h : SaysX (evalArrayX o (.coll zs) .string rs) x t := h
    unfold evalArrayX at h
    have e : isValidList .string (.coll zs) = .ok true := valid_strings zs
    rw [e] at h
    cases h
  | arr s zs =>
    refine ⟨fun h => ?_, fun h => absurd rfl (h.2.2.2.1 s zs)⟩
    exfalso
    have e : isValidList (getDataType (.arr s zs)) (.arr s zs) = .ok true := valid_strings zs
    rw [e] at h
    have h : SaysX (evalArrayX o (.arr s zs) .string rs) x t := h
    unfold evalArrayX at h
    have e : isValidList .string (.arr s zs) = .ok true := valid_strings zs
    rw [e] at h
    cases h
  | _ =>
    refine Iff.trans says_tell ⟨?_, ?_⟩
    · rintro ⟨rfl, rfl⟩
      exact ⟨rfl, (fun _ h => by cases h), (fun _ h => by cases h), (fun _ _ h => by cases h), rfl⟩
    · rintro ⟨rfl, _, _, _, rfl⟩; exact ⟨rfl, rfl⟩

theorem hetero_typed (ws : List Value) :
    heterogeneous (typed ws) = true ↔ ∃ w ∈ ws, ∃ z ∈ ws, getDataType w ≠ getDataType z := by
  rw [hetero_eq]; exact heterogeneous'_iff ws

end BoolParser
