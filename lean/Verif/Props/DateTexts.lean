import Verif.Lemmas.DateTexts
import Verif.Lemmas.Mixed
import Verif.Props.Functions
/-!
# C84: which texts are dates

A text is a day, a moment or an ordinary text (`Verif/Spec/DateTexts.lean`), and that decides how it is compared.
-/

namespace BoolParser
open Spec

/-- **C84**, a text is read in at most one way. -/
theorem C84_one_reading (s : JStr) :
    (∀ x y, ReadsDay s x → ReadsDay s y → x = y) ∧ (∀ t u, ReadsMoment s t → ReadsMoment s u → t = u) ∧
      ∀ x t, ReadsDay s x → ¬ ReadsMoment s t :=
  ⟨fun _ _ => readsDay_unique, fun _ _ => readsMoment_unique, fun _ _ => day_not_moment⟩

/-- There is no 30th of February, a year may have five digits, and a day may end at 24:00:00. -/
example : ReadsDay j!"2023-02-30" ⟨2023, 2, 28⟩ ∧ ReadsDay j!"+00001-12-31" ⟨1, 12, 31⟩ ∧
    ReadsMoment j!"2023-12-31 24:00:00" ⟨⟨2024, 1, 1⟩, 0, 0, 0, 0⟩ ∧ Ordinary j!"2023-5-6" ∧ Ordinary j!"12345-01-01" :=
  ⟨parseDate_iff.mp (by krfl), parseDate_iff.mp (by krfl), parseDateTime_iff.mp (by krfl),
    ordinary_of (by krfl) (by krfl), ordinary_of (by krfl) (by krfl)⟩

/-- **C84**, days: `LocalDate`s, date literals and texts read as days compare by year, month and day. -/
theorem C84_days {o : CmpOp} {l r : Arith} {s : JStr} (h : Writes s (.cmp o l r)) {env : Env} {d : Data}
    {df : Option JStr} (hdf : DefaultOk df) {a b : Value} (hl : l.value env d = .ok a) (hr : r.value env d = .ok b)
    {x y : Date} (ha : DayOf a x) (hb : DayOf b y) :
    evaluate env s d df = .success (decide (Rel o (dateKey x) (dateKey y))) := by
  rw [cmp_text h hdf hl hr, compare_days o ha hb]; rfl

example (env : Env) (x : Date) : evaluate env j!"born <= '2023-02-30'" [(j!"born", .date x)] none =
    .success (decide (dateKey x ≤ dateKey ⟨2023, 2, 28⟩)) :=
  C84_days (o := .le) (l := .field j!"born") (r := .lit (.str '\'' j!"2023-02-30")) (writes_of (by krfl)) noDefault
    (a := .date x) (b := .str j!"2023-02-30") (by rfl) (by rfl) (.obj x) (.text (parseDate_iff.mp (by krfl)))

/-- **C84**, moments. -/
theorem C84_moments {o : CmpOp} {l r : Arith} {s : JStr} (h : Writes s (.cmp o l r)) {env : Env} {d : Data}
    {df : Option JStr} (hdf : DefaultOk df) {a b : Value} (hl : l.value env d = .ok a) (hr : r.value env d = .ok b)
    {x y : DateTime} (ha : MomentOf a x) (hb : MomentOf b y) :
    evaluate env s d df = .success (decide (Rel o (dateTimeKey x) (dateTimeKey y))) := by
  rw [cmp_text h hdf hl hr, compare_moments o ha hb]; rfl

example (env : Env) (x : DateTime) : evaluate env j!"at < '2023-12-31 24:00:00'" [(j!"at", .datetime x)] none =
    .success (decide (dateTimeKey x < dateTimeKey ⟨⟨2024, 1, 1⟩, 0, 0, 0, 0⟩)) :=
  C84_moments (o := .lt) (l := .field j!"at") (r := .lit (.str '\'' j!"2023-12-31 24:00:00")) (writes_of (by krfl))
    noDefault (a := .datetime x) (b := .str j!"2023-12-31 24:00:00") (by rfl) (by rfl) (.obj x)
    (.text (parseDateTime_iff.mp (by krfl)))

/-- **C84**, a day against a moment fails. -/
theorem C84_day_and_moment {o : CmpOp} {l r : Arith} {s : JStr} (h : Writes s (.cmp o l r)) {env : Env} {d : Data}
    {df : Option JStr} (hdf : DefaultOk df) {a b : Value} (hl : l.value env d = .ok a) (hr : r.value env d = .ok b)
    {x : Date} {t : DateTime} (hab : DayOf a x ∧ MomentOf b t ∨ MomentOf a t ∧ DayOf b x) :
    evaluate env s d df = .failure .invalidDataType := by
  rw [cmp_text h hdf hl hr]
  rcases hab with ⟨ha, hb⟩ | ⟨ha, hb⟩
  · rw [compare_sorts o (.day ha) (.moment hb) (by decide)]; rfl
  · rw [compare_sorts o (.moment ha) (.day hb) (by decide)]; rfl

example (env : Env) (x : DateTime) :
    evaluate env j!"at = '2023-02-30'" [(j!"at", .datetime x)] none = .failure .invalidDataType :=
  C84_day_and_moment (o := .eq) (l := .field j!"at") (r := .lit (.str '\'' j!"2023-02-30")) (writes_of (by krfl))
    noDefault (a := .datetime x) (b := .str j!"2023-02-30") (by rfl) (by rfl)
    (.inr ⟨.obj x, .text (parseDate_iff.mp (show parseDate _ = some ⟨2023, 2, 28⟩ by krfl))⟩)

/-- **C84**, an ordinary text against a text, a day or a moment compares the printed forms. -/
theorem C84_ordinary {o : CmpOp} {l r : Arith} {s : JStr} (h : Writes s (.cmp o l r)) {env : Env} {d : Data}
    {df : Option JStr} (hdf : DefaultOk df) {a b : Value} (hl : l.value env d = .ok a) (hr : r.value env d = .ok b)
    {u v : JStr} (ha : TextOf a u) (hb : TextOf b v) (hab : (a = .str u ∧ Ordinary u) ∨ (b = .str v ∧ Ordinary v)) :
    evaluate env s d df = .success (decide (Rel o (utf16 u) (utf16 v))) := by
  rw [cmp_text h hdf hl hr, compare_texts o ha hb (hab.imp ?_ ?_)]
  · rfl
  · rintro ⟨rfl, h⟩; exact ordinary_type h
  · rintro ⟨rfl, h⟩; exact ordinary_type h

/-- A day without its zero is an ordinary text: the 6th of May 2023 comes after every day of that year before
October, in the order of texts. -/
example (env : Env) : evaluate env j!"born < '2023-5-6'" [(j!"born", .date ⟨2023, 9, 30⟩)] none = .success true := by
  rw [C84_ordinary (o := .lt) (l := .field j!"born") (r := .lit (.str '\'' j!"2023-5-6")) (writes_of (by krfl)) noDefault
    (a := .date ⟨2023, 9, 30⟩) (b := .str j!"2023-5-6") (by rfl) (by rfl) (.day _) (.text _)
    (.inr ⟨rfl, ordinary_of (by krfl) (by krfl)⟩)]
  krfl

/-- **C84**, two texts: one of the four theorems above always applies. -/
theorem C84_cases (u v : JStr) :
    (∃ x y, DayOf (.str u) x ∧ DayOf (.str v) y) ∨ (∃ x y, MomentOf (.str u) x ∧ MomentOf (.str v) y) ∨
      (∃ x t, DayOf (.str u) x ∧ MomentOf (.str v) t ∨ MomentOf (.str u) t ∧ DayOf (.str v) x) ∨
      Ordinary u ∨ Ordinary v := by
  have key : ∀ w : JStr, (∃ x, ReadsDay w x) ∨ (∃ t, ReadsMoment w t) ∨ Ordinary w := by
    intro w
    by_cases h1 : ∃ x, ReadsDay w x
    · exact .inl h1
    · by_cases h2 : ∃ t, ReadsMoment w t
      · exact .inr (.inl h2)
      · exact .inr (.inr ⟨fun x h => h1 ⟨x, h⟩, fun t h => h2 ⟨t, h⟩⟩)
  rcases key u with ⟨x, hx⟩ | ⟨x, hx⟩ | hu <;> rcases key v with ⟨y, hy⟩ | ⟨y, hy⟩ | hv
  · exact .inl ⟨x, y, .text hx, .text hy⟩
  · exact .inr (.inr (.inl ⟨x, y, .inl ⟨.text hx, .text hy⟩⟩))
  · exact .inr (.inr (.inr (.inr hv)))
  · exact .inr (.inr (.inl ⟨y, x, .inr ⟨.text hx, .text hy⟩⟩))
  · exact .inr (.inl ⟨x, y, .text hx, .text hy⟩)
  · exact .inr (.inr (.inr (.inr hv)))
  all_goals exact .inr (.inr (.inr (.inl hu)))

/-! ### DAYS_ELAPSED of a text -/

theorem callDays_text (env : Env) {u : JStr} {x : Date} (hx : ReadsDay u x) :
    callFn env .daysElapsed (typed [.str u]) = match parseIsoDate u with
      | some d => .ok (.long (epochDay env.today - epochDay d))
      | none => .error .invalidFunctionArgument := by
  have ht := dayOf_type (.text hx)
  rw [callFn_one env rfl (by rw [ht]; rfl) (by rw [ht]; simp only [isValid, dayOf_as (.text hx)]; rfl)]
  rfl

/-- **C84**, DAYS_ELAPSED of a text that is a day of its month: the days from it to today (see C33). -/
theorem C84_days_elapsed {args : List Arith} {s : JStr} (h : WritesArith s (.call .daysElapsed args)) {env : Env}
    {d : Data} {u : JStr} (hi : Items env d args [.str u]) {ys : JStr} {m n : ℕ} (hu : DayParts u ys m n)
    (hn : DayNumbers (digitsValue ys) m n) (hlen : ys.length ≤ 10) (hreal : n ≤ IsDay.monthDays (digitsValue ys) m)
    (ht : IsDay env.today) (k : ℕ) :
    (env.today = daysAfter k ⟨digitsValue ys, m, n⟩ → evaluateArith env s d = .success (.long k)) ∧
    ((⟨digitsValue ys, m, n⟩ : Date) = daysAfter k env.today → evaluateArith env s d = .success (.long (-k))) := by
  have hx : IsDay ⟨digitsValue ys, m, n⟩ := ⟨hn.2.2.1, hn.2.2.2.1, hn.2.2.2.2.1, hreal⟩
  rw [call_text h hi, callDays_text env ⟨ys, m, n, hu, hn, rfl⟩, isoDate_of hu hn, if_pos ⟨hlen, hreal⟩]
  constructor
  · intro he
    rw [he, (epochDay_daysAfter k hx).2]
    simp [Outcome.ofResult]
  · intro he
    rw [he]
    show Outcome.success (Value.long (epochDay env.today - epochDay (daysAfter k env.today))) = _
    rw [(epochDay_daysAfter k ht).2]
    simp

example (pl : Int → Int → Dbl) (pd : Dec → Dec → Dbl) :
    evaluateArith ⟨⟨2024, 3, 1⟩, pl, pd⟩ j!"days_elapsed(a)" [(['a'], .str j!"+002024-02-28")] = .success (.long 2) :=
  (C84_days_elapsed (args := [.field ['a']]) (writesArith_of (by krfl)) ⟨[.str j!"+002024-02-28"], rfl, rfl⟩
    (ys := j!"002024") (m := 2) (n := 28)
    ⟨j!"+002024", j!"02", j!"28", ⟨by decide, .inr ⟨rfl, by decide, by decide⟩⟩, ⟨rfl, by decide, by decide⟩,
      ⟨rfl, by decide, by decide⟩, rfl⟩ (by simp only [DayNumbers]; decide) (by decide) (by decide)
    (realDate_isDay (show RealDate ⟨2024, 3, 1⟩ by decide)) 2).1
    (show (⟨2024, 3, 1⟩ : Date) = _ by decide)

/-- **C84**, DAYS_ELAPSED refuses other texts: with one exception if the text is read as a day by comparisons, with
another if it is not. -/
theorem C84_days_refused {args : List Arith} {s : JStr} (h : WritesArith s (.call .daysElapsed args)) {env : Env}
    {d : Data} {u : JStr} (hi : Items env d args [.str u]) :
    (∀ ys m n, DayParts u ys m n → DayNumbers (digitsValue ys) m n →
      (10 < ys.length ∨ IsDay.monthDays (digitsValue ys) m < n) →
      evaluateArith env s d = .failure .invalidFunctionArgument) ∧
    ((∀ x, ¬ ReadsDay u x) → evaluateArith env s d = .failure .invalidDataType) := by
  constructor
  · intro ys m n hu hn hor
    rw [call_text h hi, callDays_text env ⟨ys, m, n, hu, hn, rfl⟩, isoDate_of hu hn, if_neg (by omega)]
    rfl
  · intro hno
    have ht : FuncType.allows .daysElapsed (getDataType (.str u)) = false := by
      have : getDataType (.str u) ≠ .date := by
        simp only [getDataType, parse_day_none hno]
        split <;> simp
      simpa [FuncType.allows] using this
    rw [call_text h hi, callFn_eq]
    show Outcome.ofResult (if false = true then _ else if (!if 1 < 1 then _ else true) = true then _ else
      if (!(FuncType.allows .daysElapsed (getDataType (.str u)) && true)) = true then _ else _) = _
    rw [ht]
    rfl

/-- What comparisons read as the 28th of February, DAYS_ELAPSED refuses. -/
example (env : Env) : evaluateArith env j!"days_elapsed(a)" [(['a'], .str j!"2023-02-30")] =
    .failure .invalidFunctionArgument :=
  (C84_days_refused (args := [.field ['a']]) (writesArith_of (by krfl)) ⟨[.str j!"2023-02-30"], rfl, rfl⟩).1
    j!"2023" 2 30 ⟨j!"2023", j!"02", j!"30", ⟨by decide, .inl ⟨rfl, by decide⟩⟩, ⟨rfl, by decide, by decide⟩,
      ⟨rfl, by decide, by decide⟩, rfl⟩ (by simp only [DayNumbers]; decide) (.inr (by decide))

end BoolParser
