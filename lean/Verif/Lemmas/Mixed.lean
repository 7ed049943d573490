import Verif.Lemmas.NumText
import Verif.Lemmas.DateTexts
import Verif.Spec.Mixed
/-!
# Comparisons of values of different kinds
-/

namespace BoolParser
open Spec

/-! ### Texts that are no numbers -/

theorem padNat_digits (w n : Nat) : IsDigits (padNat w n) := by
  constructor
  · intro h
    have := List.append_eq_nil_iff.mp h
    exact natStr_ne_nil n this.2
  · unfold padNat
    rw [List.all_append, natStr_digits, Bool.and_true, List.all_eq_true]
    intro c hc
    rw [(List.mem_replicate.mp hc).2]; rfl

theorem dateStr_dashed (d : Date) (tl : JStr) : Dashed (dateStr d ++ tl) := by
  have e : dateStr d ++ tl = (if d.year < 0 then '-' :: padNat 4 d.year.natAbs
      else if 9999 < d.year then '+' :: natStr d.year.natAbs else padNat 4 d.year.natAbs) ++
      '-' :: (padNat 2 d.month ++ ['-'] ++ padNat 2 d.day ++ tl) := by simp [dateStr]
  rw [e]
  generalize padNat 2 d.month ++ ['-'] ++ padNat 2 d.day ++ tl = r
  split
  · exact ⟨padNat 4 d.year.natAbs, r, padNat_digits _ _, .inr (.inr rfl)⟩
  · split
    · exact ⟨natStr d.year.natAbs, r, natStr_isDigits _, .inr (.inl rfl)⟩
    · exact ⟨padNat 4 d.year.natAbs, r, padNat_digits _ _, .inl rfl⟩

theorem dayOf_dashed {v : Value} {d : Date} (h : DayOf v d) : Dashed v.text := by
  cases h with
  | obj => have := dateStr_dashed d []; rwa [List.append_nil] at this
  | @text s _ h => exact dateLike_dashed (datePart_shape (dayPart_iff.mpr ⟨s, h, (List.append_nil s).symm⟩))

theorem momentOf_dashed {v : Value} {t : DateTime} (h : MomentOf v t) : Dashed v.text := by
  cases h with
  | obj =>
    show Dashed (dateStr t.date ++ ['T'] ++ timeStr t)
    rw [List.append_assoc]; exact dateStr_dashed _ _
  | text h =>
    obtain ⟨a, x, hs, ms, ss, h, m, sec, ha, -, -, -, rfl, -⟩ := h
    exact dateLike_dashed (datePart_shape (dayPart_iff.mpr ⟨a, ha, rfl⟩))

/-! ### Texts that are no dates -/

theorem not_dateLike_tail {ds tl : JStr} (hd : IsDigits ds) (ht : ∀ c, tl.head? = some c → isDigit c = false ∧ c ≠ '-')
    {y r : JStr} (hy : IsDigits y) : ds ++ tl ≠ y ++ '-' :: r := by
  intro e
  have h1 : (ds ++ tl).dropWhile isDigit = tl := by
    apply dropWhile_append hd.2
    cases tl with
    | nil => rfl
    | cons c t => simp [(ht c rfl).1]
  have h2 : (y ++ '-' :: r).dropWhile isDigit = '-' :: r := dropWhile_append hy.2 rfl
  rw [e, h2] at h1
  exact (ht '-' (by rw [← h1]; rfl)).2 rfl

theorem digits_tail_not_date {ds tl : JStr} (hd : IsDigits ds)
    (ht : ∀ c, tl.head? = some c → isDigit c = false ∧ c ≠ '-') : ¬ DateLike (ds ++ tl) := by
  rintro ⟨y, m, d, r, hy, _, _, e | e⟩
  · exact not_dateLike_tail hd ht hy e
  · obtain ⟨c, cs, hcs, hc⟩ := digits_head hd
    rw [hcs] at e
    injection e with e _
    rw [e] at hc; cases hc

theorem minus_not_date (s : JStr) : ¬ DateLike ('-' :: s) := by
  rintro ⟨y, m, d, r, hy, _, _, e | e⟩
  · obtain ⟨c, cs, hcs, hc⟩ := digits_head hy
    rw [hcs] at e
    injection e with e _
    rw [← e] at hc; cases hc
  · injection e with e _; cases e

theorem take_isDigits {s : JStr} {n : Nat} (h : IsDigits s) (hn : 0 < n) : IsDigits (s.take n) := by
  obtain ⟨c, cs, hcs, hc⟩ := digits_head h
  constructor
  · rw [hcs]; cases n with
    | zero => omega
    | succ n => simp
  · rw [List.all_eq_true]
    intro x hx
    exact List.all_eq_true.mp h.2 x (List.mem_of_mem_take hx)

/-- The digits of a printed decimal end, or a point or an exponent follows. -/
theorem toStr_shape (d : Dec) : ∃ ds tl : JStr, IsDigits ds ∧
    (∀ c, tl.head? = some c → isDigit c = false ∧ c ≠ '-') ∧
    d.toStr = (if d.unscaled < 0 then ['-'] else []) ++ (ds ++ tl) := by
  have hc := natStr_isDigits d.unscaled.natAbs
  unfold Dec.toStr
  simp only
  generalize natStr d.unscaled.natAbs = coeff at *
  have tl0 : ∀ c, ([] : JStr).head? = some c → isDigit c = false ∧ c ≠ '-' := by intro c h; cases h
  have tlp : ∀ (x : JStr) c, ('.' :: x).head? = some c → isDigit c = false ∧ c ≠ '-' := by
    intro x c h; injection h with h; subst h; decide
  have tle : ∀ (x : JStr) c, ('E' :: x).head? = some c → isDigit c = false ∧ c ≠ '-' := by
    intro x c h; injection h with h; subst h; decide
  split
  · exact ⟨coeff, [], hc, tl0, by simp⟩
  split
  · split
    · exact ⟨['0'], '.' :: (Dec.zeros (d.scale.toNat - coeff.length) ++ coeff), by decide, tlp _, by simp⟩
    · refine ⟨coeff.take (coeff.length - d.scale.toNat), '.' :: coeff.drop (coeff.length - d.scale.toNat),
        take_isDigits hc (by omega), tlp _, by simp⟩
  · obtain ⟨c, cs, hcs, hcd⟩ := digits_head hc
    have h1 : IsDigits [c] := ⟨by simp, by simp [hcd]⟩
    subst hcs
    cases cs with
    | nil =>
      simp only
      split
      · exact ⟨[c], [], h1, tl0, by simp⟩
      · exact ⟨[c], _, h1, tle _, by simp; rfl⟩
    | cons c' cs =>
      simp only
      split
      · exact ⟨[c], '.' :: c' :: cs, h1, tlp _, by simp⟩
      · exact ⟨[c], _, h1, tlp _, by simp; rfl⟩

theorem toStr_not_date (d : Dec) : ¬ DateLike d.toStr := by
  obtain ⟨ds, tl, hd, ht, e⟩ := toStr_shape d
  rw [e]
  split
  · exact minus_not_date _
  · rw [List.nil_append]; exact digits_tail_not_date hd ht

theorem intStr_not_date (n : Int) : ¬ DateLike (intStr n) := by
  unfold intStr
  split
  · exact minus_not_date _
  · have := digits_tail_not_date (natStr_isDigits n.natAbs) (tl := []) (by intro c h; cases h)
    rwa [List.append_nil] at this

theorem num_not_date {v : Value} {x : ℚ} (h : Num v x) : ¬ DateLike v.text := by
  cases h with
  | int _ => exact intStr_not_date _
  | long _ => exact intStr_not_date _
  | dec d => exact toStr_not_date d
  | dbl h => exact numeral_not_date h
  | flt h => exact numeral_not_date h

theorem bool_not_date (b : Bool) : ¬ DateLike (Value.bool b).text := by
  rintro ⟨y, m, d, r, hy, _, _, e | e⟩
  · obtain ⟨c, cs, hcs, hc⟩ := digits_head hy
    rw [hcs] at e
    cases b <;> (injection e with e _; rw [← e] at hc; cases hc)
  · cases b <;> (injection e with e _; cases e)

theorem datePart_none {s : JStr} (h : ¬ DateLike s) : parseDatePart s = none := by
  cases hd : parseDatePart s with
  | none => rfl
  | some x => exact absurd (datePart_shape hd) h

theorem asDate_none {v : Value} (hn : v ≠ .null) (ho : ∀ d, v ≠ .date d) (h : ¬ DateLike v.text) : asDate v = .ok none := by
  cases v with
  | null => exact absurd rfl hn
  | date d => exact absurd rfl (ho d)
  | _ => simp only [asDate, toText, ok_bind, parseDate, datePart_none h]; rfl

theorem asDateTime_none {v : Value} (hn : v ≠ .null) (ho : ∀ d, v ≠ .datetime d) (h : ¬ DateLike v.text) :
    asDateTime v = .ok none := by
  cases v with
  | null => exact absurd rfl hn
  | datetime d => exact absurd rfl (ho d)
  | _ => simp only [asDateTime, toText, ok_bind, parseDateTime, datePart_none h]; rfl

/-- A date-time text has a space. -/
theorem dateTime_space {s : JStr} {t : DateTime} (h : parseDateTime s = some t) : ' ' ∈ s := by
  unfold parseDateTime at h
  cases hd : parseDatePart s with
  | none => rw [hd] at h; cases h
  | some x =>
    obtain ⟨d, s5⟩ := x
    rw [hd] at h
    simp only [Option.bind_eq_bind, Option.bind_some] at h
    cases hl : lit ' ' s5 with
    | none => rw [hl] at h; cases h
    | some r =>
      have e5 := lit_shape hl
      unfold parseDatePart at hd
      simp only [Option.bind_eq_bind, Option.bind_eq_some_iff] at hd
      obtain ⟨⟨y, s1⟩, h1, s2, h2, ⟨m, s3⟩, h3, s4, h4, ⟨d', s5'⟩, h5, x, _, e⟩ := hd
      injection e with e; injection e with _ e
      simp only at e
      subst e
      obtain ⟨ys, _, e1⟩ := yearOfEra_shape h1
      have e2 := lit_shape h2
      obtain ⟨ms, _, e3⟩ := two_shape h3
      have e4 := lit_shape h4
      obtain ⟨dds, _, e5'⟩ := two_shape h5
      simp only at e2 e4 e5'
      subst e2 e3 e4 e5' e5
      rcases e1 with e1 | e1 <;> rw [e1] <;> simp

theorem digits_no_space {s : JStr} (h : s.all isDigit = true) : ' ' ∉ s := by
  intro hm
  have := List.all_eq_true.mp h _ hm
  cases this

theorem dateStr_no_space (d : Date) : ' ' ∉ dateStr d := by
  have p := fun w n => digits_no_space (padNat_digits w n).2
  have q := fun n => digits_no_space (natStr_digits n)
  unfold dateStr
  simp only [List.mem_append, List.mem_singleton, not_or]
  refine ⟨⟨⟨⟨?_, by decide⟩, p _ _⟩, by decide⟩, p _ _⟩
  split
  · simp [p]
  · split
    · simp [q]
    · exact p _ _

theorem dayOf_not_moment {v : Value} {d : Date} (h : DayOf v d) : asDateTime v = .ok none := by
  cases h with
  | obj =>
    have : parseDateTime (dateStr d) = none := by
      cases hp : parseDateTime (dateStr d) with
      | none => rfl
      | some t => exact absurd (dateTime_space hp) (dateStr_no_space d)
    simp only [asDateTime, toText, Value.text, ok_bind, this]; rfl
  | text h => simp only [asDateTime, toText, Value.text, ok_bind, parse_moment_none fun t => day_not_moment h]; rfl

/-! ### The coercions of the four kinds -/

theorem need_fails {α : Type} (f : Value → Result (Option α)) (c : α → α → Ordering) {a b : Value}
    (ha : ∃ o, f a = .ok o) (hb : ∃ o, f b = .ok o) (h : f a = .ok none ∨ f b = .ok none) :
    both f c a b = .error .invalidDataType := by
  obtain ⟨x, hx⟩ := ha
  obtain ⟨y, hy⟩ := hb
  unfold both
  rcases h with h | h
  · rw [h]; rfl
  · rw [hx, h]; cases x <;> rfl

theorem sort_ne_null {v : Value} {s : Sort'} (h : OfSort v s) : v ≠ .null := by
  cases h with
  | truth b => simp
  | number h => exact num_ne_null h
  | day h => cases h <;> simp
  | moment h => cases h <;> simp

theorem sort_type {v : Value} {s : Sort'} (h : OfSort v s) :
    match s with
    | .truth => getDataType v = .boolean
    | .number => getDataType v = .integer ∨ getDataType v = .long ∨ getDataType v = .decimal
    | .day => getDataType v = .date
    | .moment => getDataType v = .datetime := by
  cases h with
  | truth b => rfl
  | number h => exact num_type h
  | day h => exact dayOf_type h
  | moment h => exact momentOf_type h

theorem sort_valid {v : Value} {s : Sort'} (h : OfSort v s) : isValid (getDataType v) v = .ok true := by
  rcases own_type (sort_ne_null h) with e | ⟨e, f, _⟩
  · exact e
  · cases h with
    | truth b => cases e
    | number h => exact num_valid h
    | day h => rw [dayOf_type h] at e; cases e
    | moment h => rw [momentOf_type h] at e; cases e

/-- What is no number does not coerce to one. -/
theorem sort_no_number {v : Value} {s : Sort'} (h : OfSort v s) (hs : s ≠ .number) :
    asInt v = .ok none ∧ asLong v = .ok none ∧ asDec v = .ok none := by
  have key : Dec.parse v.text = none ∧ (∀ n, v ≠ .int n) ∧ (∀ n, v ≠ .long n) ∧ (∀ n, v ≠ .dec n) := by
    cases h with
    | truth b => cases b <;> exact ⟨rfl, by simp, by simp, by simp⟩
    | number h => exact absurd rfl hs
    | day h => exact ⟨dashed_not_number (dayOf_dashed h), by cases h <;> simp, by cases h <;> simp, by cases h <;> simp⟩
    | moment h => exact ⟨dashed_not_number (momentOf_dashed h), by cases h <;> simp, by cases h <;> simp, by cases h <;> simp⟩
  obtain ⟨hp, h1, h2, h3⟩ := key
  have hn := sort_ne_null h
  refine ⟨?_, ?_, ?_⟩ <;> cases v <;>
    first
      | exact absurd rfl hn
      | exact absurd rfl (h1 _)
      | exact absurd rfl (h2 _)
      | exact absurd rfl (h3 _)
      | simp [asInt, asLong, asDec, hp]

theorem sort_no_date {v : Value} {s : Sort'} (h : OfSort v s) (hs : s = .truth ∨ s = .number) :
    asDate v = .ok none ∧ asDateTime v = .ok none := by
  have key : ¬ DateLike v.text ∧ (∀ n, v ≠ .date n) ∧ (∀ n, v ≠ .datetime n) := by
    cases h with
    | truth b => exact ⟨bool_not_date b, by simp, by simp⟩
    | number h => exact ⟨num_not_date h, by cases h <;> simp, by cases h <;> simp⟩
    | day h => rcases hs with h | h <;> cases h
    | moment h => rcases hs with h | h <;> cases h
  exact ⟨asDate_none (sort_ne_null h) key.2.1 key.1, asDateTime_none (sort_ne_null h) key.2.2 key.1⟩

/-- The value does not coerce to the type. -/
def Refused (T : DataType) (v : Value) : Prop :=
  match T with
  | .integer => asInt v = .ok none
  | .long => asLong v = .ok none
  | .decimal => asDec v = .ok none
  | .date => asDate v = .ok none
  | .datetime => asDateTime v = .ok none
  | _ => False

theorem refused_prim {T : DataType} {a b : Value} (na : a ≠ .null) (nb : b ≠ .null) (h : Refused T a ∨ Refused T b) :
    comparePrim T a b = .error .invalidDataType := by
  cases T with
  | integer => exact need_fails asInt compare (tame_int _ na) (tame_int _ nb) h
  | long => exact need_fails asLong compare (tame_long _ na) (tame_long _ nb) h
  | decimal => exact need_fails asDec Dec.cmp (tame_dec _ na) (tame_dec _ nb) h
  | date => exact need_fails asDate cmpDate (tame_date _ na) (tame_date _ nb) h
  | datetime => exact need_fails asDateTime cmpDateTime (tame_datetime _ na) (tame_datetime _ nb) h
  | _ => rcases h with h | h <;> cases h

theorem refused_valid {T : DataType} {v : Value} (h : Refused T v) : isValid T v = .ok false := by
  cases T with
  | integer => simp only [isValid]; rw [show asInt v = .ok none from h]; rfl
  | long => simp only [isValid]; rw [show asLong v = .ok none from h]; rfl
  | decimal => simp only [isValid]; rw [show asDec v = .ok none from h]; rfl
  | date => simp only [isValid]; rw [show asDate v = .ok none from h]; rfl
  | datetime => simp only [isValid]; rw [show asDateTime v = .ok none from h]; rfl
  | _ => cases h

theorem refused_number {v w : Value} {s : Sort'} (h : OfSort v s) (hs : s ≠ .number) (hw : OfSort w .number) :
    Refused (getDataType w) v := by
  obtain ⟨h1, h2, h3⟩ := sort_no_number h hs
  rcases sort_type hw with e | e | e <;> rw [e] <;> assumption

/-- Values of two different kinds cannot be compared. -/
theorem compare_sorts (o : CmpOp) {a b : Value} {s t : Sort'} (ha : OfSort a s) (hb : OfSort b t) (hst : s ≠ t) :
    Cond.compare o a b = .error .invalidDataType := by
  have na := sort_ne_null ha
  have nb := sort_ne_null hb
  have va := sort_valid ha
  have ty := sort_type ha
  have ty' := sort_type hb
  by_cases ho : o = .eq ∨ o = .ne
  · rw [compare_eqop ho, va, ok_bind]
    rw [refused_prim na nb]
    · rfl
    · cases s with
      | truth =>
        simp only at ty
        cases t with
        | truth => exact absurd rfl hst
        | number =>
          left
          have := refused_number ha (by simp) hb
          rw [ty]
          rcases sort_type hb with e | e | e <;> rw [e] at this ⊢ <;> exact this
        | day => left; simp only at ty'; rw [ty, ty']; exact (sort_no_date ha (.inl rfl)).1
        | moment => left; simp only at ty'; rw [ty, ty']; exact (sort_no_date ha (.inl rfl)).2
      | number =>
        have h := sort_no_date ha (.inr rfl)
        cases t with
        | truth =>
          right
          have := refused_number hb (by simp) ha
          rw [ty']
          rcases sort_type ha with e | e | e <;> rw [e] at this ⊢ <;> exact this
        | number => exact absurd rfl hst
        | day => left; simp only at ty'; rw [ty']; rcases sort_type ha with e | e | e <;> rw [e] <;> exact h.1
        | moment => left; simp only at ty'; rw [ty']; rcases sort_type ha with e | e | e <;> rw [e] <;> exact h.2
      | day =>
        simp only at ty
        cases t with
        | truth => right; simp only at ty'; rw [ty, ty']; exact (sort_no_date hb (.inl rfl)).1
        | number =>
          right; rw [ty]
          have h := sort_no_date hb (.inr rfl)
          rcases sort_type hb with e | e | e <;> rw [e] <;> exact h.1
        | day => exact absurd rfl hst
        | moment =>
          left; simp only at ty'; rw [ty, ty']
          cases ha with | day h => exact dayOf_not_moment h
      | moment =>
        simp only at ty
        cases t with
        | truth => right; simp only at ty'; rw [ty, ty']; exact (sort_no_date hb (.inl rfl)).2
        | number =>
          right; rw [ty]
          have h := sort_no_date hb (.inr rfl)
          rcases sort_type hb with e | e | e <;> rw [e] <;> exact h.2
        | day =>
          right; simp only at ty'; rw [ty, ty']
          cases hb with | day h => exact dayOf_not_moment h
        | moment => exact absurd rfl hst
  · rw [not_or] at ho
    rw [compare_ord_sym ho.1 ho.2 na nb]
    by_cases hbool : getDataType a = .boolean ∨ getDataType b = .boolean
    · rw [if_pos hbool]
    rw [if_neg hbool, not_or] at *
    have st : s ≠ .truth := by rintro rfl; exact hbool.1 ty
    have tt : t ≠ .truth := by rintro rfl; exact hbool.2 ty'
    by_cases hs : s = .number
    · subst hs
      have hr := refused_valid (refused_number hb (Ne.symm hst) ha)
      have hn : (getDataType b).numeric = false := by
        cases t with
        | truth => exact absurd rfl tt
        | number => exact absurd rfl hst
        | day => simp only at ty'; rw [ty']; rfl
        | moment => simp only at ty'; rw [ty']; rfl
      have hm : (getDataType a).numeric = true := by rcases sort_type ha with e | e | e <;> rw [e] <;> rfl
      unfold validate
      rw [hn, hm, hr]; rfl
    by_cases ht : t = .number
    · subst ht
      have hr := refused_valid (refused_number ha hs hb)
      have hn : (getDataType a).numeric = false := by
        cases s with
        | truth => exact absurd rfl st
        | number => exact absurd rfl hs
        | day => simp only at ty; rw [ty]; rfl
        | moment => simp only at ty; rw [ty]; rfl
      have hm : (getDataType b).numeric = true := by rcases sort_type hb with e | e | e <;> rw [e] <;> rfl
      unfold validate
      rw [hn, hm, hr]; rfl
    cases s with
    | truth => exact absurd rfl st
    | number => exact absurd rfl hs
    | day =>
      cases t with
      | moment =>
        simp only at ty ty'
        rw [ty, ty', validate_same (show DataType.date.numeric = DataType.datetime.numeric from rfl), ok_bind, show orderType .date .datetime = .datetime from rfl,
          refused_prim na nb (.inl (by cases ha with | day h => exact dayOf_not_moment h))]
        rfl
      | truth => exact absurd rfl tt
      | number => exact absurd rfl ht
      | day => exact absurd rfl hst
    | moment =>
      cases t with
      | day =>
        simp only at ty ty'
        rw [ty, ty', validate_same (show DataType.datetime.numeric = DataType.date.numeric from rfl), ok_bind, show orderType .datetime .date = .datetime from rfl,
          refused_prim na nb (.inr (by cases hb with | day h => exact dayOf_not_moment h))]
        rfl
      | truth => exact absurd rfl tt
      | number => exact absurd rfl ht
      | moment => exact absurd rfl hst

/-! ### Truth values -/

theorem compare_bool {o : CmpOp} (ho : o = .eq ∨ o = .ne) (x y : Bool) :
    Cond.compare o (.bool x) (.bool y) = .ok (if o = .eq then x == y else x != y) := by
  rcases ho with rfl | rfl <;> cases x <;> cases y <;> rfl

theorem compare_bool_order {o : CmpOp} (h1 : o ≠ .eq) (h2 : o ≠ .ne) {a b : Value} (ha : a ≠ .null) (hb : b ≠ .null)
    (h : (∃ x, a = .bool x) ∨ ∃ x, b = .bool x) : Cond.compare o a b = .error .invalidDataType := by
  rw [compare_ord_sym h1 h2 ha hb, if_pos]
  rcases h with ⟨x, rfl⟩ | ⟨x, rfl⟩
  · exact .inl rfl
  · exact .inr rfl

/-! ### A text against anything -/

theorem priority_string (t : DataType) : comparableType .string t = .string ∧ comparableType t .string = .string := by
  cases t <;> exact ⟨rfl, rfl⟩

/-- `=` and `!=` of an ordinary text and anything else compare the printed forms. -/
theorem compare_text_left {o : CmpOp} (ho : o = .eq ∨ o = .ne) {u : JStr} (hu : Ordinary u) {b : Value} (hb : b ≠ .null) :
    Cond.compare o (.str u) b = .ok (o.test (cmpNats (utf16 u) (utf16 b.text))) := by
  rw [compare_eqop ho, ordinary_type hu, (priority_string _).1]
  have : comparePrim .string (.str u) b = .ok (cmpNats (utf16 u) (utf16 b.text)) := by
    cases b <;> first | exact absurd rfl hb | rfl
  rw [this]; rfl

theorem compare_text_right {o : CmpOp} (ho : o = .eq ∨ o = .ne) {u : JStr} (hu : Ordinary u) {a : Value} (ha : a ≠ .null)
    (hv : isValid (getDataType a) a = .ok true) :
    Cond.compare o a (.str u) = .ok (o.test (cmpNats (utf16 a.text) (utf16 u))) := by
  rw [compare_eqop ho, ordinary_type hu, (priority_string _).2, hv]
  have : comparePrim .string a (.str u) = .ok (cmpNats (utf16 a.text) (utf16 u)) := by
    cases a <;> first | exact absurd rfl ha | rfl
  rw [this]; rfl

end BoolParser
