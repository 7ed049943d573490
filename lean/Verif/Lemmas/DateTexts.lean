import Verif.Spec.DateTexts
import Verif.Lemmas.Kinds
/-!
# The texts that are read as days and moments
-/

namespace BoolParser
open Spec

theorem lastDay_eq (y : ℤ) (m : ℕ) : monthLen y m = IsDay.monthDays y m := by
  unfold monthLen isLeap IsDay.monthDays
  simp only [List.mem_cons, List.not_mem_nil, or_false, Int.dvd_iff_emod_eq_zero, Bool.and_eq_true, Bool.or_eq_true,
    decide_eq_true_eq]

theorem dayAfter_eq {x : Date} (h : x.month ≤ 12) : nextDay x = dayAfter x := by
  unfold nextDay dayAfter
  simp only [lastDay_eq, Nat.lt_iff_add_one_le]
  repeat' split
  all_goals first | rfl | omega

theorem readsDay_month {s : JStr} {x : Date} (h : ReadsDay s x) : x.month ≤ 12 := by
  obtain ⟨ys, m, d, -, h, rfl⟩ := h
  exact h.2.2.2.1

theorem natOfDigits_value (s : JStr) : natOfDigits 0 s = digitsValue s := by
  exact (digitsValue_eq s).symm

theorem two_iff {s r : JStr} {n : ℕ} : two s = some (n, r) ↔ ∃ ds, TwoDigits ds n ∧ s = ds ++ r := by
  constructor
  · intro h
    unfold two at h
    split at h
    · rename_i a b cs
      split at h
      · rename_i hd
        simp only [Bool.and_eq_true] at hd
        cases h
        exact ⟨[a, b], ⟨rfl, ⟨by simp, by simp [hd.1, hd.2]⟩, (natOfDigits_value _).symm⟩, rfl⟩
      · cases h
    · cases h
  · rintro ⟨ds, ⟨hl, hd, rfl⟩, rfl⟩
    match ds, hl with
    | [a, b], _ =>
      have := hd.2
      simp only [List.all_cons, List.all_nil, Bool.and_true] at this
      simp only [two, List.cons_append, List.nil_append, this, if_true, natOfDigits_value]

theorem lit_iff {c : Char} {s r : JStr} : lit c s = some r ↔ s = c :: r := by
  constructor
  · exact lit_shape
  · rintro rfl; simp [lit]

theorem takeWhile_digits {ds r : JStr} (h : ds.all isDigit = true) (hr : ∀ c cs, r = c :: cs → isDigit c = false) :
    (ds ++ r).takeWhile isDigit = ds := by
  induction ds with
  | nil =>
    cases r with
    | nil => rfl
    | cons c cs => simp [List.takeWhile_cons, hr c cs rfl]
  | cons c cs ih =>
    simp only [List.all_cons, Bool.and_eq_true] at h
    simp only [List.cons_append, List.takeWhile_cons, h.1, if_true, ih h.2]

theorem digits_prefix (cs : JStr) : ((cs.takeWhile isDigit).take 19).all isDigit = true := by
  rw [List.all_eq_true]
  intro c hc
  have h := List.mem_of_mem_take hc
  have hp : ∀ (l : JStr), c ∈ l.takeWhile isDigit → isDigit c = true := by
    intro l
    induction l with
    | nil => intro h; cases h
    | cons x xs ih =>
      intro h
      rw [List.takeWhile_cons] at h
      split at h
      · rcases List.mem_cons.mp h with e | e
        · subst e; assumption
        · exact ih e
      · cases h
  exact hp _ h

theorem year_iff {s r : JStr} {y : ℕ} (hr : ∃ cs, r = '-' :: cs) : parseYearOfEra s = some (y, r) ↔
    ∃ t ys, YearWritten t ys ∧ 1 ≤ digitsValue ys ∧ digitsValue ys ≤ 999999999 ∧ y = digitsValue ys ∧ s = t ++ r := by
  obtain ⟨rs, rfl⟩ := hr
  have main : ∀ (cs : JStr), cs.drop ((cs.takeWhile isDigit).take 19).length = '-' :: rs →
      cs = (cs.takeWhile isDigit).take 19 ++ '-' :: rs := by
    intro cs h
    have hp : (cs.takeWhile isDigit).take 19 <+: cs := (List.take_prefix _ _).trans (List.takeWhile_prefix _)
    have := List.prefix_iff_eq_append.mp hp
    rw [h] at this; exact this.symm
  have hdash : ∀ c cs, '-' :: rs = c :: cs → isDigit c = false := by
    intro c cs e; cases e; decide
  constructor
  · intro h
    unfold parseYearOfEra at h
    split at h
    · cases h
    · rename_i cs
      simp only at h
      split at h
      · rename_i hc
        injection h with h; injection h with h1 h2
        refine ⟨_, (cs.takeWhile isDigit).take 19, ⟨⟨?_, digits_prefix cs⟩, .inr ⟨rfl, by omega, ?_⟩⟩, ?_, ?_, ?_,
          congrArg _ (main cs h2)⟩
        · intro e; rw [e] at hc; simp at hc
        · exact List.length_take_le _ _
        · rw [← natOfDigits_value]; exact hc.2.1
        · rw [← natOfDigits_value]; exact hc.2.2
        · rw [← natOfDigits_value]; exact h1.symm
      · cases h
    · simp only at h
      split at h
      · rename_i hc
        injection h with h; injection h with h1 h2
        refine ⟨_, (s.takeWhile isDigit).take 19, ⟨⟨?_, digits_prefix s⟩, .inl ⟨rfl, hc.1⟩⟩, ?_, ?_, ?_, main s h2⟩
        · intro e; rw [e] at hc; simp at hc
        · rw [← natOfDigits_value]; exact hc.2.1
        · rw [← natOfDigits_value]; exact hc.2.2
        · rw [← natOfDigits_value]; exact h1.symm
      · cases h
  · rintro ⟨t, ys, ⟨hys, ht⟩, h1, h2, rfl, rfl⟩
    rcases ht with ⟨rfl, hl⟩ | ⟨rfl, hl, hl'⟩
    · have htake : ((t ++ '-' :: rs).takeWhile isDigit).take 19 = t := by
        rw [takeWhile_digits hys.2 hdash, List.take_of_length_le (by omega)]
      obtain ⟨c, cs, rfl, hc⟩ := digits_head hys
      unfold parseYearOfEra
      split
      · rename_i e; rw [List.cons_append] at e; cases e; cases hc
      · rename_i e; rw [List.cons_append] at e; cases e; cases hc
      · simp only [htake, hl, natOfDigits_value, h1, h2, and_self, if_true]
        rw [← hl, List.drop_left]
    · have htake : ((ys ++ '-' :: rs).takeWhile isDigit).take 19 = ys := by
        rw [takeWhile_digits hys.2 hdash, List.take_of_length_le hl']
      simp only [parseYearOfEra, List.cons_append, htake, natOfDigits_value, h1, h2, and_true, List.drop_left,
        show 4 < ys.length by omega, if_true]

theorem resolve_iff {y m d : ℕ} {x : Date} : resolveSmart y m d = some x ↔
    (1 ≤ m ∧ m ≤ 12 ∧ 1 ≤ d ∧ d ≤ 31) ∧ x = ⟨y, m, min d (IsDay.monthDays y m)⟩ := by
  unfold resolveSmart
  rw [← lastDay_eq]
  split
  · rename_i h; simp only [Option.some.injEq]; exact ⟨fun e => ⟨h, e.symm⟩, fun e => e.2.symm⟩
  · rename_i h; simp [h]

theorem dayPart_iff {s r : JStr} {x : Date} : parseDatePart s = some (x, r) ↔ ∃ a, ReadsDay a x ∧ s = a ++ r := by
  unfold parseDatePart
  simp only [Option.bind_eq_bind, Option.bind_eq_some_iff, Prod.exists]
  constructor
  · rintro ⟨y, s1, h1, s2, h2, m, s3, h3, s4, h4, d, s5, h5, x', h6, h7⟩
    cases h7
    have e2 := lit_iff.mp h2
    obtain ⟨t, ys, hy, a1, a2, rfl, rfl⟩ := (year_iff ⟨_, e2⟩).mp h1
    obtain ⟨ms, hm, rfl⟩ := two_iff.mp h3
    have e4 := lit_iff.mp h4
    obtain ⟨ds, hd, rfl⟩ := two_iff.mp h5
    obtain ⟨⟨b1, b2, b3, b4⟩, rfl⟩ := resolve_iff.mp h6
    refine ⟨_, ⟨ys, m, d, ⟨t, ms, ds, hy, hm, hd, rfl⟩, ⟨a1, a2, b1, b2, b3, b4⟩, rfl⟩, ?_⟩
    rw [e2, e4]
    simp
  · rintro ⟨_, ⟨ys, m, d, ⟨t, ms, ds, hy, hm, hd, rfl⟩, ⟨a1, a2, b1, b2, b3, b4⟩, rfl⟩, rfl⟩
    refine ⟨_, '-' :: (ms ++ '-' :: (ds ++ r)), (year_iff ⟨_, rfl⟩).mpr ⟨t, ys, hy, a1, a2, rfl, by simp⟩, _, lit_iff.mpr rfl,
      m, '-' :: (ds ++ r), two_iff.mpr ⟨ms, hm, rfl⟩, _, lit_iff.mpr rfl, d, r, two_iff.mpr ⟨ds, hd, rfl⟩, _,
      resolve_iff.mpr ⟨⟨b1, b2, b3, b4⟩, rfl⟩, rfl⟩

theorem parseDate_iff {s : JStr} {x : Date} : parseDate s = some x ↔ ReadsDay s x := by
  unfold parseDate
  constructor
  · intro h
    split at h
    · rename_i x' e
      cases h
      obtain ⟨a, ha, e⟩ := dayPart_iff.mp e
      rw [e, List.append_nil]; exact ha
    · cases h
  · intro h
    rw [dayPart_iff.mpr ⟨s, h, (List.append_nil s).symm⟩]

theorem parseDateTime_iff {s : JStr} {t : DateTime} : parseDateTime s = some t ↔ ReadsMoment s t := by
  unfold parseDateTime
  simp only [Option.bind_eq_bind, Option.bind_eq_some_iff, Prod.exists]
  constructor
  · rintro ⟨x, s1, h1, s2, h2, h, s3, h3, s4, h4, m, s5, h5, s6, h6, sec, s7, h7, h8⟩
    obtain ⟨a, ha, rfl⟩ := dayPart_iff.mp h1
    have e2 := lit_iff.mp h2
    obtain ⟨hs, hh, rfl⟩ := two_iff.mp h3
    have e4 := lit_iff.mp h4
    obtain ⟨ms, hm, rfl⟩ := two_iff.mp h5
    have e6 := lit_iff.mp h6
    obtain ⟨ss, hsec, rfl⟩ := two_iff.mp h7
    split at h8
    · cases h8
    rename_i hnil
    have hnil : s7 = [] := by simpa using hnil
    refine ⟨a, x, hs, ms, ss, h, m, sec, ha, hh, hm, hsec, by rw [e2, e4, e6, hnil]; simp, ?_⟩
    split at h8
    · rename_i h24
      split at h8
      · rename_i hy
        cases h8
        rw [dayAfter_eq (readsDay_month ha)] at hy ⊢
        exact .inr ⟨h24.1, h24.2.1, h24.2.2, hy, rfl⟩
      · cases h8
    · split at h8
      · rename_i hb; cases h8; exact .inl ⟨hb.1, hb.2.1, hb.2.2, rfl⟩
      · cases h8
  · rintro ⟨a, x, hs, ms, ss, h, m, sec, ha, hh, hm, hsec, rfl, ht⟩
    refine ⟨x, _, dayPart_iff.mpr ⟨a, ha, rfl⟩, _, lit_iff.mpr rfl, h, _, two_iff.mpr ⟨hs, hh, rfl⟩, _, lit_iff.mpr rfl, m, _,
      two_iff.mpr ⟨ms, hm, rfl⟩, _, lit_iff.mpr rfl, sec, [], two_iff.mpr ⟨ss, hsec, (List.append_nil _).symm⟩, ?_⟩
    rw [if_neg (by simp)]
    rcases ht with ⟨h1, h2, h3, rfl⟩ | ⟨rfl, rfl, rfl, hy, rfl⟩
    · rw [if_neg (by omega), if_pos ⟨h1, h2, h3⟩]
    · rw [if_pos ⟨rfl, rfl, rfl⟩, dayAfter_eq (readsDay_month ha), if_pos hy]

/-! ### A text is read in one way -/

theorem readsDay_unique {s : JStr} {x y : Date} (h : ReadsDay s x) (h' : ReadsDay s y) : x = y := by
  have h := parseDate_iff.mpr h
  rw [parseDate_iff.mpr h'] at h
  cases h; rfl

theorem readsMoment_unique {s : JStr} {x y : DateTime} (h : ReadsMoment s x) (h' : ReadsMoment s y) : x = y := by
  have h := parseDateTime_iff.mpr h
  rw [parseDateTime_iff.mpr h'] at h
  cases h; rfl

theorem two_no_space {s : JStr} {n : ℕ} (h : TwoDigits s n) : ' ' ∉ s := fun hm => by
  have := List.all_eq_true.mp h.2.1.2 _ hm
  cases this

theorem readsDay_no_space {s : JStr} {x : Date} (h : ReadsDay s x) : ' ' ∉ s := by
  obtain ⟨ys, m, d, ⟨t, ms, ds, ⟨hy, ht⟩, hm, hd, rfl⟩, -, -⟩ := h
  have hys : ' ' ∉ ys := fun hm => by
    have := List.all_eq_true.mp hy.2 _ hm
    cases this
  simp only [List.mem_append, List.mem_cons, not_or]
  refine ⟨?_, by decide, two_no_space hm, by decide, two_no_space hd⟩
  rcases ht with ⟨rfl, -⟩ | ⟨rfl, -⟩
  · exact hys
  · simp only [List.mem_cons, not_or]; exact ⟨by decide, hys⟩

theorem readsMoment_space {s : JStr} {t : DateTime} (h : ReadsMoment s t) : ' ' ∈ s := by
  obtain ⟨a, x, hs, ms, ss, h, m, sec, -, -, -, -, rfl, -⟩ := h
  simp

theorem day_not_moment {s : JStr} {x : Date} {t : DateTime} (h : ReadsDay s x) : ¬ ReadsMoment s t :=
  fun h' => readsDay_no_space h (readsMoment_space h')

/-! ### Types and values -/

theorem parse_moment_none {s : JStr} (h : ∀ t, ¬ ReadsMoment s t) : parseDateTime s = none := by
  cases e : parseDateTime s with
  | none => rfl
  | some t => exact absurd (parseDateTime_iff.mp e) (h t)

theorem parse_day_none {s : JStr} (h : ∀ x, ¬ ReadsDay s x) : parseDate s = none := by
  cases e : parseDate s with
  | none => rfl
  | some t => exact absurd (parseDate_iff.mp e) (h t)

/-- For concrete texts. -/
theorem ordinary_of {s : JStr} (h1 : parseDate s = none) (h2 : parseDateTime s = none) : Ordinary s :=
  ⟨(fun x h => by rw [parseDate_iff.mpr h] at h1; cases h1), (fun t h => by rw [parseDateTime_iff.mpr h] at h2; cases h2)⟩

theorem ordinary_plain {s : JStr} (h : ¬ DateLike s) : Ordinary s :=
  ⟨fun _ hx => h (datePart_shape (dayPart_iff.mpr ⟨s, hx, (List.append_nil s).symm⟩)), fun t ht => by
    obtain ⟨a, x, hs, ms, ss, _, _, _, ha, -, -, -, rfl, -⟩ := ht
    exact h (datePart_shape (dayPart_iff.mpr ⟨a, ha, rfl⟩))⟩

theorem ordinary_type {s : JStr} (h : Ordinary s) : getDataType (.str s) = .string := by
  simp [getDataType, parse_day_none h.1, parse_moment_none h.2]

theorem compare_str (o : CmpOp) {s t : JStr} (h : Ordinary s ∨ Ordinary t) :
    Cond.compare o (.str s) (.str t) = .ok (decide (Rel o (utf16 s) (utf16 t))) := by
  rw [← test_cmp, ← cmpNats_eq]
  have ty : ∀ u : JStr, getDataType (.str u) = .string ∨ getDataType (.str u) = .date ∨ getDataType (.str u) = .datetime := by
    intro u; simp only [getDataType]; split
    · simp
    · split <;> simp
  have hv : isValid (getDataType (.str s)) (.str s) = .ok true := by
    rcases own_type (v := .str s) (by simp) with h | ⟨h, _⟩
    · exact h
    · rcases ty s with h' | h' | h' <;> rw [h'] at h <;> cases h
  have hp : comparePrim .string (.str s) (.str t) = .ok (cmpNats (utf16 s) (utf16 t)) := rfl
  have hs : getDataType (.str s) = .string ∨ getDataType (.str t) = .string := by
    rcases h with h | h
    · exact .inl (ordinary_type h)
    · exact .inr (ordinary_type h)
  refine compare_via o .string ?_ ?_ hv ?_ ?_ (validate_same ?_) hp
  all_goals rcases ty s with h1 | h1 | h1 <;> rcases ty t with h2 | h2 | h2 <;> rw [h1, h2] at hs <;>
    first
      | (rcases hs with hs | hs <;> cases hs; done)
      | (simp only [h1, h2]; rfl)
      | simp [h1, h2]

theorem dayOf_as {a : Value} {x : Date} (h : DayOf a x) : asDate a = .ok (some x) := by
  cases h with
  | obj => rfl
  | text h => simp only [asDate, toText, Value.text, ok_bind, parseDate_iff.mpr h]; rfl

theorem dayOf_type {a : Value} {x : Date} (h : DayOf a x) : getDataType a = .date := by
  cases h with
  | obj => rfl
  | text h => simp [getDataType, parse_moment_none fun t => day_not_moment h, parseDate_iff.mpr h]

theorem momentOf_as {a : Value} {t : DateTime} (h : MomentOf a t) : asDateTime a = .ok (some t) := by
  cases h with
  | obj => rfl
  | text h => simp only [asDateTime, toText, Value.text, ok_bind, parseDateTime_iff.mpr h]; rfl

theorem momentOf_type {a : Value} {t : DateTime} (h : MomentOf a t) : getDataType a = .datetime := by
  cases h with
  | obj => rfl
  | text h => simp [getDataType, parseDateTime_iff.mpr h]

theorem dateOf_day {a : Value} {x : Date} (h : DateOf a x) : DayOf a x := by
  cases h with
  | obj => exact .obj _
  | text h => exact .text (parseDate_iff.mp (parseDate_text h))

theorem dateTimeOf_moment {a : Value} {t : DateTime} (h : DateTimeOf a t) : MomentOf a t := by
  cases h with
  | obj => exact .obj _
  | text h ht => exact .text (parseDateTime_iff.mp (parseDateTime_text h ht.1 ht.2.1 ht.2.2.1 ht.2.2.2))

/-! ### Comparisons -/

theorem compare_days (o : CmpOp) {a b : Value} {x y : Date} (ha : DayOf a x) (hb : DayOf b y) :
    Cond.compare o a b = .ok (decide (Rel o (dateKey x) (dateKey y))) := by
  rw [← test_cmp, ← cmpDate_eq]
  have h1 := dayOf_type ha
  have h2 := dayOf_type hb
  refine compare_via o .date (by simp [h1]) (by simp [h2]) ?_ (by rw [h1, h2]; rfl) (by rw [h1, h2]; rfl)
    (validate_same (by rw [h1, h2])) ?_
  · rw [h1]; simp only [isValid, dayOf_as ha]; rfl
  · unfold comparePrim both; rw [dayOf_as ha, dayOf_as hb]; rfl

theorem compare_moments (o : CmpOp) {a b : Value} {x y : DateTime} (ha : MomentOf a x) (hb : MomentOf b y) :
    Cond.compare o a b = .ok (decide (Rel o (dateTimeKey x) (dateTimeKey y))) := by
  rw [← test_cmp, ← cmpDateTime_eq]
  have h1 := momentOf_type ha
  have h2 := momentOf_type hb
  refine compare_via o .datetime (by simp [h1]) (by simp [h2]) ?_ (by rw [h1, h2]; rfl) (by rw [h1, h2]; rfl)
    (validate_same (by rw [h1, h2])) ?_
  · rw [h1]; simp only [isValid, momentOf_as ha]; rfl
  · unfold comparePrim both; rw [momentOf_as ha, momentOf_as hb]; rfl

theorem textOf_type {a : Value} {u : JStr} (h : TextOf a u) :
    (getDataType a = .string ∨ getDataType a = .date ∨ getDataType a = .datetime) ∧
      isValid (getDataType a) a = .ok true ∧ asString a = .ok (some u) := by
  cases h with
  | text =>
    refine ⟨?_, ?_, rfl⟩
    · simp only [getDataType]; split
      · simp
      · split <;> simp
    · simp only [getDataType]
      split
      · rename_i h; simp only [isValid, asDateTime, toText, ok_bind, Value.text]; rw [← h]; rfl
      · split
        · rename_i h; simp only [isValid, asDate, toText, ok_bind, Value.text]; rw [← h]; rfl
        · rfl
  | day x => exact ⟨.inr (.inl rfl), rfl, rfl⟩
  | moment t => exact ⟨.inr (.inr rfl), rfl, rfl⟩

theorem compare_texts (o : CmpOp) {a b : Value} {u v : JStr} (ha : TextOf a u) (hb : TextOf b v)
    (h : getDataType a = .string ∨ getDataType b = .string) :
    Cond.compare o a b = .ok (decide (Rel o (utf16 u) (utf16 v))) := by
  rw [← test_cmp, ← cmpNats_eq]
  obtain ⟨t1, v1, s1⟩ := textOf_type ha
  obtain ⟨t2, v2, s2⟩ := textOf_type hb
  have hp : comparePrim .string a b = .ok (cmpNats (utf16 u) (utf16 v)) := by
    unfold comparePrim both; rw [s1, s2]; rfl
  refine compare_via o .string ?_ ?_ v1 ?_ ?_ (validate_same ?_) hp
  all_goals rcases t1 with h1 | h1 | h1 <;> rcases t2 with h2 | h2 | h2 <;> rw [h1, h2] at h <;>
    first
      | (rcases h with h | h <;> cases h; done)
      | (simp only [h1, h2]; rfl)
      | simp [h1, h2]

/-! ### DAYS_ELAPSED -/

theorem isoYear_take {ys : JStr} (hys : ys.all isDigit = true) (r : JStr) (n : ℕ) :
    ((ys ++ '-' :: r).takeWhile isDigit).take n = ys.take n := by
  rw [takeWhile_digits hys fun c cs e => by cases e; decide]

theorem isoDate_of {s ys : JStr} {m d : ℕ} (h : DayParts s ys m d) (hn : DayNumbers (digitsValue ys) m d) :
    parseIsoDate s = if ys.length ≤ 10 ∧ d ≤ IsDay.monthDays (digitsValue ys) m
      then some ⟨digitsValue ys, m, d⟩ else none := by
  obtain ⟨t, ms, ds, ⟨hys, ht⟩, hm, hd, rfl⟩ := h
  obtain ⟨n1, n2, n3, n4, n5, n6⟩ := hn
  have rest : ∀ (y : ℤ), (do
      let s ← lit '-' ('-' :: (ms ++ '-' :: ds))
      let (m, s) ← two s
      let s ← lit '-' s
      let (d, s) ← two s
      if s = [] ∧ 1 ≤ m ∧ m ≤ 12 ∧ 1 ≤ d ∧ d ≤ monthLen y m then some (⟨y, m, d⟩ : Date) else none) =
      if d ≤ IsDay.monthDays y m then some ⟨y, m, d⟩ else none := by
    intro y
    have e1 : two (ms ++ '-' :: ds) = some (m, '-' :: ds) := two_iff.mpr ⟨ms, hm, rfl⟩
    have e2 : two ds = some (d, []) := two_iff.mpr ⟨ds, hd, (List.append_nil _).symm⟩
    simp only [lit, if_true, Option.bind_eq_bind, Option.bind_some, e1, e2, lastDay_eq, true_and, n3, n4, n5]
  have hdigit : ∀ k, k < ys.length → ys.drop k ≠ [] := fun k hk e => by
    have := congrArg List.length e
    simp at this; omega
  have short : ys.length ≤ 10 → ys.take 10 = ys := fun h => List.take_of_length_le h
  unfold parseIsoDate
  rcases ht with ⟨rfl, hl⟩ | ⟨rfl, hl, hl'⟩
  · obtain ⟨c, cs, rfl, hc⟩ := digits_head hys
    have hy : parseIsoYear ((c :: cs) ++ '-' :: (ms ++ '-' :: ds)) =
        some ((digitsValue (c :: cs) : ℤ), '-' :: (ms ++ '-' :: ds)) := by
      have htake := isoYear_take hys.2 (ms ++ '-' :: ds) 10
      rw [short (by omega)] at htake
      unfold parseIsoYear
      split
      · rename_i e; rw [List.cons_append] at e; cases e; cases hc
      · rename_i e; rw [List.cons_append] at e; cases e; cases hc
      · simp only [htake, hl, natOfDigits_value, if_true]
        rw [← hl, List.drop_left]
    rw [hy]
    simp only [hl, show (4 : ℕ) ≤ 10 by omega, true_and]
    exact rest _
  · have htake := isoYear_take hys.2 (ms ++ '-' :: ds) 10
    by_cases h10 : ys.length ≤ 10
    · rw [short h10] at htake
      have hy : parseIsoYear (('+' :: ys) ++ '-' :: (ms ++ '-' :: ds)) =
          some ((digitsValue ys : ℤ), '-' :: (ms ++ '-' :: ds)) := by
        simp only [parseIsoYear, List.cons_append, htake, natOfDigits_value, n2, and_true,
          show 4 < ys.length by omega, if_true, List.drop_left]
      rw [hy]
      simp only [h10, true_and]
      exact rest _
    · rw [if_neg (fun h => h10 h.1)]
      have hy : ∀ y r, parseIsoYear (('+' :: ys) ++ '-' :: (ms ++ '-' :: ds)) = some (y, r) → lit '-' r = none := by
        intro y r h
        simp only [parseIsoYear, List.cons_append, htake] at h
        split at h
        · cases h
          have hlen : (ys.take 10).length = 10 := by simp; omega
          rw [hlen, List.drop_append_of_le_length (by omega)]
          have hall : (ys.drop 10).all isDigit = true := by
            rw [List.all_eq_true]; exact fun c hc => List.all_eq_true.mp hys.2 c (List.mem_of_mem_drop hc)
          have hne := hdigit 10 (by omega)
          cases hdr : ys.drop 10 with
          | nil => exact absurd hdr hne
          | cons c cs =>
            rw [hdr] at hall
            simp only [List.all_cons, Bool.and_eq_true] at hall
            have : c ≠ '-' := by rintro rfl; exact absurd hall.1 (by decide)
            simp only [List.cons_append, lit, this, if_false]
        · cases h
      cases hp : parseIsoYear (('+' :: ys) ++ '-' :: (ms ++ '-' :: ds)) with
      | none => rfl
      | some x =>
        obtain ⟨y, r⟩ := x
        simp only [Option.bind_eq_bind, Option.bind_some, hy y r hp]
        rfl

end BoolParser
