import Verif.Lemmas.NumText
import Verif.Lemmas.DateTexts
import Verif.Lemmas.VersionCmp
import Verif.Lemmas.Checker
/-!
# Comparisons

C02, C03, C04, C05, C06, C07, C08, C50.

The theorems speak about a text `s` that writes the comparison `l o r` of two operands (`Spec/Expr.lean`:
fields, literals, arithmetic, function calls) and about the values `a`, `b` the operands have under the
given data.
-/

namespace BoolParser
open Spec

/-- No default field. -/
theorem noDefault : DefaultOk none := by intro f h; cases h

/-! ## C02 `!=` is the complement of `=` -/

/-- **C02.** `l != r` succeeds exactly when `l = r` does, with the opposite boolean, and fails with the same
failure otherwise. -/
theorem C02_not_equal {l r : Arith} {s s' : JStr} (h : Writes s (.cmp .eq l r)) (h' : Writes s' (.cmp .ne l r))
    (env : Env) (d : Data) {df : Option JStr} (hdf : DefaultOk df) :
    evaluate env s' d df = (evaluate env s d df).map (!·) := by
  rw [h.eval env d hdf, h'.eval env d hdf, Cond.meaning, Cond.meaning]
  cases l.value env d with
  | error e => rfl
  | ok a =>
    cases hr : Cond.rightValue env d r with
    | error e => rw [ok_bind, ok_bind]; rfl
    | ok b =>
      rw [ok_bind, ok_bind, ok_bind, ok_bind, compare_ne]
      cases Cond.compare .eq a b <;> rfl

/-- **C02**, omitted left operand. -/
theorem C02_not_equal_default {r : Arith} {s s' : JStr} (h : Writes s (.cmpD .eq r)) (h' : Writes s' (.cmpD .ne r))
    (env : Env) (d : Data) {df : Option JStr} (hdf : DefaultOk df) :
    evaluate env s' d df = (evaluate env s d df).map (!·) := by
  rw [h.eval env d hdf, h'.eval env d hdf, Cond.meaning, Cond.meaning]
  cases Cond.defaultValue df d with
  | error e => rfl
  | ok a =>
    cases hr : Cond.rightValue env d r with
    | error e => rw [ok_bind, ok_bind]; rfl
    | ok b =>
      rw [ok_bind, ok_bind, ok_bind, ok_bind, compare_ne]
      cases Cond.compare .eq a b <;> rfl

/-- **C02**, the two operators on any two values (null included). -/
theorem C02_values (a b : Value) : Cond.compare .ne a b = (Cond.compare .eq a b).map (!·) := compare_ne a b

example (env : Env) (d : Data) : evaluate env j!"a != 'x'" d none = (evaluate env j!"a = 'x'" d none).map (!·) :=
  C02_not_equal (l := .field ['a']) (r := .lit (.str '\'' ['x'])) (writes_of (by krfl)) (writes_of (by krfl))
    env d noDefault

/-- The failing case occurs: a `Double` that is not a number. -/
example (env : Env) : evaluate env j!"a = 5" [(['a'], .dbl j!"NaN")] none = .failure .invalidDataType ∧
    evaluate env j!"a != 5" [(['a'], .dbl j!"NaN")] none = .failure .invalidDataType := ⟨by krfl, by krfl⟩

/-! ## C03 Duality and complementarity of the order operators -/

/-- The operator with its operands exchanged. -/
def mirror : CmpOp → CmpOp
  | .lt => .gt
  | .gt => .lt
  | .le => .ge
  | .ge => .le
  | o => o

/-- The operator with the opposite answer. -/
def opposite : CmpOp → CmpOp
  | .lt => .ge
  | .ge => .lt
  | .gt => .le
  | .le => .gt
  | .eq => .ne
  | .ne => .eq

/-- An order operator. -/
def IsOrder (o : CmpOp) : Prop := o ≠ .eq ∧ o ≠ .ne

instance (o : CmpOp) : Decidable (IsOrder o) := inferInstanceAs (Decidable (_ ∧ _))

theorem compare_mirror {o : CmpOp} (ho : IsOrder o) {a b : Value} (ha : a ≠ .null) (hb : b ≠ .null) :
    Cond.compare o a b = Cond.compare (mirror o) b a := by
  cases o with
  | eq => exact absurd rfl ho.1
  | ne => exact absurd rfl ho.2
  | lt => exact compare_dual (.inl ⟨rfl, rfl⟩) ha hb
  | le => exact compare_dual (.inr ⟨rfl, rfl⟩) ha hb
  | gt => exact (compare_dual (.inl ⟨rfl, rfl⟩) hb ha).symm
  | ge => exact (compare_dual (.inr ⟨rfl, rfl⟩) hb ha).symm

theorem compare_opposite (o : CmpOp) (a b : Value) :
    Cond.compare (opposite o) a b = (Cond.compare o a b).map (!·) := by
  have nn : ∀ r : Result Bool, (r.map (!·)).map (!·) = r := by
    intro r; cases r with
    | error e => rfl
    | ok b => cases b <;> rfl
  cases o with
  | eq => exact compare_ne a b
  | ne => rw [compare_ne, nn]; rfl
  | gt => exact compare_complement (.inl ⟨rfl, rfl⟩) a b
  | lt => exact compare_complement (.inr ⟨rfl, rfl⟩) a b
  | le => rw [compare_complement (o := .le) (.inl ⟨rfl, rfl⟩), nn]; rfl
  | ge => rw [compare_complement (o := .ge) (.inr ⟨rfl, rfl⟩), nn]; rfl

/-- **C03**, duality: `l < r` has the outcome of `r > l`, `l <= r` that of `r >= l` (and conversely), failures
included, whenever both operands have values. -/
theorem C03_dual {o : CmpOp} (ho : IsOrder o) {l r : Arith} {s s' : JStr} (h : Writes s (.cmp o l r))
    (h' : Writes s' (.cmp (mirror o) r l)) (env : Env) (d : Data) {df : Option JStr} (hdf : DefaultOk df)
    {a b : Value} (hl : l.value env d = .ok a) (hr : r.value env d = .ok b) :
    evaluate env s d df = evaluate env s' d df := by
  rw [cmp_text h hdf hl hr, cmp_text h' hdf hr hl,
    compare_mirror ho (value_nn env d l a hl) (value_nn env d r b hr)]

theorem rightValue_error {env : Env} {d : Data} {r : Arith} {e : Exn} (h : r.value env d = .error e) :
    ∃ e', Cond.rightValue env d r = .error e' := by
  cases r with
  | field f =>
    rw [Arith.value, Arith.fieldValue] at h
    show ∃ e', (getValueFromMap f d >>= fun o => match o with
      | some v => pure v
      | none => throw .noSuchElement : Result Value) = .error e'
    cases hv : getValueFromMap f d with
    | error e => exact ⟨e, rfl⟩
    | ok o =>
      rw [hv] at h
      cases o with
      | none => exact ⟨.noSuchElement, rfl⟩
      | some v => cases h
  | _ => exact ⟨e, h⟩

/-- **C03**, duality without assumptions on the operands: the two texts return the same boolean or none at
all. -/
theorem C03_dual_any {o : CmpOp} (ho : IsOrder o) {l r : Arith} {s s' : JStr} (h : Writes s (.cmp o l r))
    (h' : Writes s' (.cmp (mirror o) r l)) (env : Env) (d : Data) {df : Option JStr} (hdf : DefaultOk df)
    (x : Bool) : evaluate env s d df = .success x ↔ evaluate env s' d df = .success x := by
  cases hl : l.value env d with
  | ok a =>
    cases hr : r.value env d with
    | ok b => rw [C03_dual ho h h' env d hdf hl hr]
    | error e =>
      obtain ⟨e', he'⟩ := rightValue_error hr
      rw [h.eval env d hdf, h'.eval env d hdf, Cond.meaning, Cond.meaning, hl, he', hr]
      constructor <;> intro h <;> cases h
  | error e =>
    obtain ⟨e', he'⟩ := rightValue_error hl
    rw [h.eval env d hdf, h'.eval env d hdf, Cond.meaning, Cond.meaning, hl, he']
    constructor
    · intro h; cases h
    · intro h; cases hr : r.value env d <;> rw [hr] at h <;> cases h

/-- **C03**, complementarity: `l <= r` is the complement of `l > r`, `l >= r` that of `l < r` (and
conversely), for all operands, failures included. -/
theorem C03_complement {o : CmpOp} {l r : Arith} {s s' : JStr} (h : Writes s (.cmp o l r))
    (h' : Writes s' (.cmp (opposite o) l r)) (env : Env) (d : Data) {df : Option JStr} (hdf : DefaultOk df) :
    evaluate env s' d df = (evaluate env s d df).map (!·) := by
  rw [h.eval env d hdf, h'.eval env d hdf, Cond.meaning, Cond.meaning]
  cases l.value env d with
  | error e => rfl
  | ok a =>
    cases hr : Cond.rightValue env d r with
    | error e => rw [ok_bind, ok_bind]; rfl
    | ok b =>
      rw [ok_bind, ok_bind, ok_bind, ok_bind, compare_opposite]
      cases Cond.compare o a b <;> rfl

example (env : Env) (d : Data) : evaluate env j!"a <= 2.5" d none = (evaluate env j!"a > 2.5" d none).map (!·) :=
  C03_complement (o := .gt) (l := .field ['a']) (r := .lit (.dec ['2'] ['5'])) (writes_of (by krfl))
    (writes_of (by krfl)) env d noDefault

example (env : Env) : evaluate env j!"a < '7'" [(['a'], .int 5)] none = evaluate env j!"'7' > a" [(['a'], .int 5)] none :=
  C03_dual (o := .lt) (by decide) (l := .field ['a']) (r := .lit (.str '\'' ['7'])) (writes_of (by krfl))
    (writes_of (by krfl)) env _ noDefault (a := .int 5) (b := .str ['7']) (by rfl) (by rfl)

/-! ## C04 Numbers -/

/-- **C04.** Comparing an `Integer`, `Long`, `BigDecimal`, `Double` or `Float` with another gives what the
numbers say. -/
theorem C04_numbers {o : CmpOp} {l r : Arith} {s : JStr} (h : Writes s (.cmp o l r)) {env : Env} {d : Data}
    {df : Option JStr} (hdf : DefaultOk df) {a b : Value} (hl : l.value env d = .ok a) (hr : r.value env d = .ok b)
    {x y : ℚ} (ha : Num a x) (hb : Num b y) : evaluate env s d df = .success (decide (Rel o x y)) := by
  rw [cmp_text h hdf hl hr, compare_num o ha hb]; rfl

/-- `5 = 5.00` and `2147483648 > 2147483647`, the larger one a `Long`. -/
example (env : Env) (d : Data) : evaluate env j!"5 = 5.00" d none = .success true ∧
    evaluate env j!"2147483648 > 2147483647" d none = .success true := by
  constructor
  · rw [C04_numbers (o := .eq) (l := .lit (.int ['5'])) (r := .lit (.dec ['5'] j!"00")) (writes_of (by krfl))
      noDefault (a := .int 5) (b := .dec ⟨500, 2⟩) (by rfl) (by rfl) (.int (by decide)) (.dec _)]
    simp [Rel, decVal]; norm_num
  · rw [C04_numbers (o := .gt) (l := .lit (.int j!"2147483648")) (r := .lit (.int j!"2147483647")) (writes_of (by krfl))
      noDefault (a := .long 2147483648) (b := .int 2147483647) (by rfl) (by rfl) (.long (by decide)) (.int (by decide))]
    simp [Rel]; norm_num

/-! ## C06 Strings -/

/-- **C06.** Two strings, at least one of them not read as a day or a moment, compare by their UTF-16 units. -/
theorem C06_strings {o : CmpOp} {l r : Arith} {s : JStr} (h : Writes s (.cmp o l r)) {env : Env} {d : Data}
    {df : Option JStr} (hdf : DefaultOk df) {u v : JStr} (hl : l.value env d = .ok (.str u))
    (hr : r.value env d = .ok (.str v)) (hp : Ordinary u ∨ Ordinary v) :
    evaluate env s d df = .success (decide (Rel o (utf16 u) (utf16 v))) := by
  rw [cmp_text h hdf hl hr, compare_str o hp]; rfl

/-- **C06**, equality: identical character for character. -/
theorem C06_equal {l r : Arith} {s : JStr} (h : Writes s (.cmp .eq l r)) {env : Env} {d : Data}
    {df : Option JStr} (hdf : DefaultOk df) {u v : JStr} (hl : l.value env d = .ok (.str u))
    (hr : r.value env d = .ok (.str v)) (hp : Ordinary u ∨ Ordinary v) :
    evaluate env s d df = .success (decide (u = v)) := by
  rw [C06_strings h hdf hl hr hp]
  congr 1
  apply decide_eq_decide.mpr
  exact ⟨fun e => utf16_inj e, fun e => by rw [e]; rfl⟩

/-- Texts that start like dates can be equal without being identical: there is no 30th of February. -/
theorem C06_dates_differ (env : Env) (d : Data) :
    evaluate env j!"'2023-02-30' = '2023-02-28'" d none = .success true := by krfl

theorem not_dateLike_head {c : Char} {s : JStr} (hc : isDigit c = false) (hp : c ≠ '+') : ¬ DateLike (c :: s) := by
  rintro ⟨y, m, d, r, hy, _, _, e | e⟩
  · obtain ⟨c', cs, hcs, hc'⟩ := digits_head hy
    rw [hcs] at e; injection e with e1 _; rw [e1, hc'] at hc; cases hc
  · injection e with e1 _; exact hp e1

example (env : Env) : evaluate env j!"name = 'Ärger'" [(j!"name", .str j!"ärger")] none = .success false := by
  rw [C06_equal (l := .field j!"name") (r := .lit (.str '\'' j!"Ärger")) (writes_of (by krfl)) noDefault
    (u := j!"ärger") (v := j!"Ärger") (by rfl) (by rfl) (.inl (ordinary_plain (not_dateLike_head (by decide) (by decide))))]
  rfl

/-! ## C07 Dates and date-times -/

/-- **C07**, dates: `LocalDate` objects, date literals and texts `yyyy-MM-dd` in any mixture compare by year,
month, day. -/
theorem C07_dates {o : CmpOp} {l r : Arith} {s : JStr} (h : Writes s (.cmp o l r)) {env : Env} {d : Data}
    {df : Option JStr} (hdf : DefaultOk df) {a b : Value} (hl : l.value env d = .ok a) (hr : r.value env d = .ok b)
    {x y : Date} (ha : DateOf a x) (hb : DateOf b y) :
    evaluate env s d df = .success (decide (Rel o (dateKey x) (dateKey y))) := by
  rw [cmp_text h hdf hl hr, compare_date o ha hb]; rfl

/-- **C07**, date-times. -/
theorem C07_datetimes {o : CmpOp} {l r : Arith} {s : JStr} (h : Writes s (.cmp o l r)) {env : Env} {d : Data}
    {df : Option JStr} (hdf : DefaultOk df) {a b : Value} (hl : l.value env d = .ok a) (hr : r.value env d = .ok b)
    {x y : DateTime} (ha : DateTimeOf a x) (hb : DateTimeOf b y) :
    evaluate env s d df = .success (decide (Rel o (dateTimeKey x) (dateTimeKey y))) := by
  rw [cmp_text h hdf hl hr, compare_datetime o ha hb]; rfl

/-- A text field against a date literal, and a `LocalDateTime` against a text. -/
example (env : Env) : evaluate env j!"born < 2000-01-31" [(j!"born", .str j!"1999-12-31")] none = .success true := by
  rw [C07_dates (o := .lt) (l := .field j!"born") (r := .lit (.date ⟨2000, 1, 31⟩)) (writes_of (by krfl)) noDefault
    (a := .str (dateText ⟨1999, 12, 31⟩)) (b := .date ⟨2000, 1, 31⟩) (by krfl) (by rfl)
    (.text (by decide)) (.obj _)]
  congr 1

example (env : Env) : evaluate env j!"t >= '2023-05-06 07:08:09'" [(['t'], .datetime ⟨⟨2023, 5, 6⟩, 7, 8, 10, 0⟩)] none
    = .success true := by
  rw [C07_datetimes (o := .ge) (l := .field ['t']) (r := .lit (.str '\'' j!"2023-05-06 07:08:09")) (writes_of (by krfl))
    noDefault (a := .datetime ⟨⟨2023, 5, 6⟩, 7, 8, 10, 0⟩) (b := .str (dateTimeText ⟨⟨2023, 5, 6⟩, 7, 8, 9, 0⟩))
    (by rfl) (by krfl) (.obj _) (.text (by decide) ⟨by decide, by decide, by decide, rfl⟩)]
  congr 1

/-! ## C05 Trichotomy and transitivity -/

/-- The three comparison texts: exactly one holds. -/
def ExactlyOne (x y z : Outcome Bool) : Prop :=
  (x = .success true ∧ y = .success false ∧ z = .success false) ∨
  (x = .success false ∧ y = .success true ∧ z = .success false) ∨
  (x = .success false ∧ y = .success false ∧ z = .success true)

theorem exactlyOne_rel {α : Type} [LinearOrder α] (x y : α) :
    ExactlyOne (.success (decide (Rel .lt x y))) (.success (decide (Rel .eq x y))) (.success (decide (Rel .gt x y))) := by
  unfold ExactlyOne
  rcases lt_trichotomy x y with h | h | h
  · left; simp [Rel, h, h.ne, h.le]
  · right; left; simp [Rel, h]
  · right; right; simp [Rel, h, h.ne', not_lt_of_gt h]

/-- **C05**, numbers: exactly one of `l < r`, `l = r`, `l > r` is true. -/
theorem C05_trichotomy_numbers {l r : Arith} {s₁ s₂ s₃ : JStr} (h₁ : Writes s₁ (.cmp .lt l r))
    (h₂ : Writes s₂ (.cmp .eq l r)) (h₃ : Writes s₃ (.cmp .gt l r)) {env : Env} {d : Data} {df : Option JStr}
    (hdf : DefaultOk df) {a b : Value} (hl : l.value env d = .ok a) (hr : r.value env d = .ok b)
    {x y : ℚ} (ha : Num a x) (hb : Num b y) :
    ExactlyOne (evaluate env s₁ d df) (evaluate env s₂ d df) (evaluate env s₃ d df) := by
  rw [C04_numbers h₁ hdf hl hr ha hb, C04_numbers h₂ hdf hl hr ha hb, C04_numbers h₃ hdf hl hr ha hb]
  exact exactlyOne_rel x y

/-- **C05**, strings. -/
theorem C05_trichotomy_strings {l r : Arith} {s₁ s₂ s₃ : JStr} (h₁ : Writes s₁ (.cmp .lt l r))
    (h₂ : Writes s₂ (.cmp .eq l r)) (h₃ : Writes s₃ (.cmp .gt l r)) {env : Env} {d : Data} {df : Option JStr}
    (hdf : DefaultOk df) {u v : JStr} (hl : l.value env d = .ok (.str u)) (hr : r.value env d = .ok (.str v))
    (hp : Ordinary u ∨ Ordinary v) :
    ExactlyOne (evaluate env s₁ d df) (evaluate env s₂ d df) (evaluate env s₃ d df) := by
  rw [C06_strings h₁ hdf hl hr hp, C06_strings h₂ hdf hl hr hp, C06_strings h₃ hdf hl hr hp]
  exact exactlyOne_rel _ _

/-- **C05**, dates. -/
theorem C05_trichotomy_dates {l r : Arith} {s₁ s₂ s₃ : JStr} (h₁ : Writes s₁ (.cmp .lt l r))
    (h₂ : Writes s₂ (.cmp .eq l r)) (h₃ : Writes s₃ (.cmp .gt l r)) {env : Env} {d : Data} {df : Option JStr}
    (hdf : DefaultOk df) {a b : Value} (hl : l.value env d = .ok a) (hr : r.value env d = .ok b)
    {x y : Date} (ha : DateOf a x) (hb : DateOf b y) :
    ExactlyOne (evaluate env s₁ d df) (evaluate env s₂ d df) (evaluate env s₃ d df) := by
  rw [C07_dates h₁ hdf hl hr ha hb, C07_dates h₂ hdf hl hr ha hb, C07_dates h₃ hdf hl hr ha hb]
  exact exactlyOne_rel _ _

/-- **C05**, date-times. -/
theorem C05_trichotomy_datetimes {l r : Arith} {s₁ s₂ s₃ : JStr} (h₁ : Writes s₁ (.cmp .lt l r))
    (h₂ : Writes s₂ (.cmp .eq l r)) (h₃ : Writes s₃ (.cmp .gt l r)) {env : Env} {d : Data} {df : Option JStr}
    (hdf : DefaultOk df) {a b : Value} (hl : l.value env d = .ok a) (hr : r.value env d = .ok b)
    {x y : DateTime} (ha : DateTimeOf a x) (hb : DateTimeOf b y) :
    ExactlyOne (evaluate env s₁ d df) (evaluate env s₂ d df) (evaluate env s₃ d df) := by
  rw [C07_datetimes h₁ hdf hl hr ha hb, C07_datetimes h₂ hdf hl hr ha hb, C07_datetimes h₃ hdf hl hr ha hb]
  exact exactlyOne_rel _ _

theorem success_inj {b : Bool} : (Outcome.success b : Outcome Bool) = .success true ↔ b = true := by
  constructor
  · intro h; injection h
  · intro h; rw [h]

/-- **C05**, transitivity for numbers: if `l < m` and `m < r` are true, so is `l < r`. -/
theorem C05_transitive_numbers {l m r : Arith} {s₁ s₂ s₃ : JStr} (h₁ : Writes s₁ (.cmp .lt l m))
    (h₂ : Writes s₂ (.cmp .lt m r)) (h₃ : Writes s₃ (.cmp .lt l r)) {env : Env} {d : Data} {df : Option JStr}
    (hdf : DefaultOk df) {a b c : Value} (hl : l.value env d = .ok a) (hm : m.value env d = .ok b)
    (hr : r.value env d = .ok c) {x y z : ℚ} (ha : Num a x) (hb : Num b y) (hc : Num c z)
    (t₁ : evaluate env s₁ d df = .success true) (t₂ : evaluate env s₂ d df = .success true) :
    evaluate env s₃ d df = .success true := by
  rw [C04_numbers h₁ hdf hl hm ha hb, success_inj, decide_eq_true_eq] at t₁
  rw [C04_numbers h₂ hdf hm hr hb hc, success_inj, decide_eq_true_eq] at t₂
  rw [C04_numbers h₃ hdf hl hr ha hc, success_inj, decide_eq_true_eq]
  exact lt_trans (α := ℚ) t₁ t₂

/-- **C05**, transitivity for strings. -/
theorem C05_transitive_strings {l m r : Arith} {s₁ s₂ s₃ : JStr} (h₁ : Writes s₁ (.cmp .lt l m))
    (h₂ : Writes s₂ (.cmp .lt m r)) (h₃ : Writes s₃ (.cmp .lt l r)) {env : Env} {d : Data} {df : Option JStr}
    (hdf : DefaultOk df) {u v w : JStr} (hl : l.value env d = .ok (.str u)) (hm : m.value env d = .ok (.str v))
    (hr : r.value env d = .ok (.str w)) (p₁ : Ordinary u ∨ Ordinary v) (p₂ : Ordinary v ∨ Ordinary w)
    (p₃ : Ordinary u ∨ Ordinary w)
    (t₁ : evaluate env s₁ d df = .success true) (t₂ : evaluate env s₂ d df = .success true) :
    evaluate env s₃ d df = .success true := by
  rw [C06_strings h₁ hdf hl hm p₁, success_inj, decide_eq_true_eq] at t₁
  rw [C06_strings h₂ hdf hm hr p₂, success_inj, decide_eq_true_eq] at t₂
  rw [C06_strings h₃ hdf hl hr p₃, success_inj, decide_eq_true_eq]
  exact @lt_trans (List ℕ) _ _ _ _ t₁ t₂

/-- **C05**, transitivity for dates. -/
theorem C05_transitive_dates {l m r : Arith} {s₁ s₂ s₃ : JStr} (h₁ : Writes s₁ (.cmp .lt l m))
    (h₂ : Writes s₂ (.cmp .lt m r)) (h₃ : Writes s₃ (.cmp .lt l r)) {env : Env} {d : Data} {df : Option JStr}
    (hdf : DefaultOk df) {a b c : Value} (hl : l.value env d = .ok a) (hm : m.value env d = .ok b)
    (hr : r.value env d = .ok c) {x y z : Date} (ha : DateOf a x) (hb : DateOf b y) (hc : DateOf c z)
    (t₁ : evaluate env s₁ d df = .success true) (t₂ : evaluate env s₂ d df = .success true) :
    evaluate env s₃ d df = .success true := by
  rw [C07_dates h₁ hdf hl hm ha hb, success_inj, decide_eq_true_eq] at t₁
  rw [C07_dates h₂ hdf hm hr hb hc, success_inj, decide_eq_true_eq] at t₂
  rw [C07_dates h₃ hdf hl hr ha hc, success_inj, decide_eq_true_eq]
  exact lt_trans (α := ℤ ×ₗ (ℕ ×ₗ ℕ)) t₁ t₂

/-- **C05**, transitivity for date-times. -/
theorem C05_transitive_datetimes {l m r : Arith} {s₁ s₂ s₃ : JStr} (h₁ : Writes s₁ (.cmp .lt l m))
    (h₂ : Writes s₂ (.cmp .lt m r)) (h₃ : Writes s₃ (.cmp .lt l r)) {env : Env} {d : Data} {df : Option JStr}
    (hdf : DefaultOk df) {a b c : Value} (hl : l.value env d = .ok a) (hm : m.value env d = .ok b)
    (hr : r.value env d = .ok c) {x y z : DateTime} (ha : DateTimeOf a x) (hb : DateTimeOf b y)
    (hc : DateTimeOf c z)
    (t₁ : evaluate env s₁ d df = .success true) (t₂ : evaluate env s₂ d df = .success true) :
    evaluate env s₃ d df = .success true := by
  rw [C07_datetimes h₁ hdf hl hm ha hb, success_inj, decide_eq_true_eq] at t₁
  rw [C07_datetimes h₂ hdf hm hr hb hc, success_inj, decide_eq_true_eq] at t₂
  rw [C07_datetimes h₃ hdf hl hr ha hc, success_inj, decide_eq_true_eq]
  exact lt_trans (α := (ℤ ×ₗ (ℕ ×ₗ ℕ)) ×ₗ (ℕ ×ₗ (ℕ ×ₗ (ℕ ×ₗ ℕ)))) t₁ t₂

/-- Across kinds trichotomy fails: the number 5 and the text `5.0` are neither `<` nor `=` nor `>`, and so are
a version and the text of the same version with a zero appended. -/
theorem C05_mixed_kinds (env : Env) (d : Data) :
    (evaluate env j!"5 < '5.0'" d none = .success false ∧ evaluate env j!"5 = '5.0'" d none = .success false ∧
      evaluate env j!"5 > '5.0'" d none = .success false) ∧
    (evaluate env j!"1.5.9 < '1.5.9.0'" d none = .success false ∧
      evaluate env j!"1.5.9 = '1.5.9.0'" d none = .success false ∧
      evaluate env j!"1.5.9 > '1.5.9.0'" d none = .success false) := by
  refine ⟨⟨?_, ?_, ?_⟩, ?_, ?_, ?_⟩ <;> krfl

example (env : Env) : ExactlyOne (evaluate env j!"a < 2.50" [(['a'], .long 2)] none)
    (evaluate env j!"a = 2.50" [(['a'], .long 2)] none) (evaluate env j!"a > 2.50" [(['a'], .long 2)] none) :=
  C05_trichotomy_numbers (l := .field ['a']) (r := .lit (.dec ['2'] j!"50")) (writes_of (by krfl))
    (writes_of (by krfl)) (writes_of (by krfl)) noDefault (a := .long 2) (b := .dec ⟨250, 2⟩) (by rfl) (by rfl)
    (.long (by decide)) (.dec _)

/-! ## C08 Versions -/

/-- **C08.** A version object (or literal) compares with another one, or with a text of dotted numbers,
component by component as numbers, missing components read as 0. -/
theorem C08_versions {o : CmpOp} (ho : IsOrder o) {l r : Arith} {s : JStr} (h : Writes s (.cmp o l r)) {env : Env}
    {d : Data} {df : Option JStr} (hdf : DefaultOk df) {a b : Value} (hl : l.value env d = .ok a)
    (hr : r.value env d = .ok b) {t u : JStr} (ha : a = .ver t ∨ a = .str t) (hb : b = .ver u ∨ b = .str u)
    (hab : a = .ver t ∨ b = .ver u) {v w : List ℕ} (ht : VersionText t v) (hu : VersionText u w) :
    ∃ x, evaluate env s d df = .success x ∧ (x = true ↔ VersionRel o v w) := by
  obtain ⟨x, h1, h2⟩ := compare_version_text ho.1 ho.2 ha hb hab ht hu
  exact ⟨x, by rw [cmp_text h hdf hl hr, h1]; rfl, h2⟩

/-- **C08**, equality of two version objects: equal up to missing zeros. -/
theorem C08_equal {o : CmpOp} {l r : Arith} {s : JStr} (h : Writes s (.cmp o l r)) {env : Env}
    {d : Data} {df : Option JStr} (hdf : DefaultOk df) {t u : JStr} (hl : l.value env d = .ok (.ver t))
    (hr : r.value env d = .ok (.ver u)) {v w : List ℕ} (ht : VersionText t v) (hu : VersionText u w) :
    ∃ x, evaluate env s d df = .success x ∧ (x = true ↔ VersionRel o v w) := by
  obtain ⟨x, h1, h2⟩ := compare_version o ht hu
  exact ⟨x, by rw [cmp_text h hdf hl hr, h1]; rfl, h2⟩

/-- `1.5.9 < 1.5.10`, the left one from a text field. -/
example (env : Env) : ∃ x, evaluate env j!"v < 1.5.10" [(['v'], .str j!"1.5.9")] none = .success x ∧
    (x = true ↔ VersionRel .lt [1, 5, 9] [1, 5, 10]) :=
  C08_versions (o := .lt) (by decide) (l := .field ['v']) (r := .lit (.ver '1' ['5'] j!"10" [])) (writes_of (by krfl))
    noDefault (a := .str j!"1.5.9") (b := .ver j!"1.5.10") (by rfl) (by rfl) (.inr rfl) (.inl rfl) (.inr rfl)
    ⟨['1'], [['5'], ['9']], by decide, by decide, by rfl, by rfl⟩
    ⟨['1'], [['5'], j!"10"], by decide, by decide, by rfl, by rfl⟩

example : VersionRel .lt [1, 5, 9] [1, 5, 10] := ⟨2, by decide, by decide⟩

/-- A version is not comparable with a number: `v > 1.5` fails for a version with three components. -/
theorem C08_decimal_literal (env : Env) :
    evaluate env j!"v > 1.5" [(['v'], .str j!"1.5.9")] none = .failure .invalidDataType := by krfl

/-! ## C50 Numeric text against numbers -/

/-- **C50 (partial).** A text of a number compares with a number under `<`, `<=`, `>`, `>=` as the number it
denotes, if the type of the other number can hold it (always for `BigDecimal`). Missing: texts of fractions
or of too large numbers against `Integer` or `Long`, see the next theorem. -/
theorem C50_numeric_text_partial {o : CmpOp} (ho : IsOrder o) {l r : Arith} {s : JStr} (h : Writes s (.cmp o l r))
    {env : Env} {d : Data} {df : Option JStr} (hdf : DefaultOk df) {t : JStr} {b : Value}
    (hl : l.value env d = .ok (.str t)) (hr : r.value env d = .ok b) {x y : ℚ} (ht : Numeral t x) (hb : Num b y)
    (hacc : Accepts b x) : evaluate env s d df = .success (decide (Rel o x y)) := by
  rw [cmp_text h hdf hl hr, compare_numtext ho.1 ho.2 ht hb hacc]; rfl

/-- **C50 (partial)**, the text on the right. -/
theorem C50_numeric_text_right_partial {o : CmpOp} (ho : IsOrder o) {l r : Arith} {s : JStr}
    (h : Writes s (.cmp o l r)) {env : Env} {d : Data} {df : Option JStr} (hdf : DefaultOk df) {t : JStr} {a : Value}
    (hl : l.value env d = .ok a) (hr : r.value env d = .ok (.str t)) {x y : ℚ} (ha : Num a x) (ht : Numeral t y)
    (hacc : Accepts a y) : evaluate env s d df = .success (decide (Rel o x y)) := by
  have hm : IsOrder (mirror o) := by cases o <;> first | decide | exact ho
  rw [cmp_text h hdf hl hr, compare_mirror ho (num_ne_null ha) (by simp), compare_numtext hm.1 hm.2 ht ha hacc]
  show Outcome.success _ = _
  congr 1
  apply decide_eq_decide.mpr
  cases o with
  | eq => exact absurd rfl ho.1
  | ne => exact absurd rfl ho.2
  | _ => exact Iff.rfl

/-- **C50 (negation).** Otherwise the comparison fails: a text of a number that the other number's type cannot
hold. -/
theorem C50_text_not_accepted {o : CmpOp} (ho : IsOrder o) {l r : Arith} {s : JStr} (h : Writes s (.cmp o l r))
    {env : Env} {d : Data} {df : Option JStr} (hdf : DefaultOk df) {t : JStr} {b : Value}
    (hl : l.value env d = .ok (.str t)) (hr : r.value env d = .ok b) {x y : ℚ} (ht : Numeral t x) (hb : Num b y)
    (hacc : ¬ Accepts b x) : evaluate env s d df = .failure .invalidDataType := by
  rw [cmp_text h hdf hl hr, compare_numtext_fails ho.1 ho.2 ht hb hacc]; rfl

/-- `a < 6` with `a` the text `5.5` fails. -/
theorem C50_fraction_text_fails (env : Env) :
    evaluate env j!"a < 6" [(['a'], .str j!"5.5")] none = .failure .invalidDataType := by krfl

/-- **C50**, the text a `BigDecimal` prints is a text of the same number (unless it has about a billion digits
or its scale is of that size). -/
theorem C50_decimal_text {d : Dec} (h : Reasonable d) : Numeral d.toStr (decVal d) := toStr_numeral h

theorem numeral_5_50 : Numeral j!"-5.50E+1" (-55) :=
  PlainNumeral.numeral ⟨⟨.minus, ['5'], some j!"50", some (.plus, ['1'])⟩, ⟨by decide, by intro f hf; cases hf; decide,
    by intro e he; cases he; decide⟩, by rfl, by
    have : digitsValue ['5', '5', '0'] = 550 := by rfl
    have h1 : digitsValue ['1'] = 1 := by rfl
    simp [NumText.value, NumText.exponent, Sign.factor, this, h1]; norm_num⟩

example (env : Env) : evaluate env j!"a < 3" [(['a'], .str j!"-5.50E+1")] none = .success true := by
  rw [C50_numeric_text_partial (o := .lt) (by decide) (l := .field ['a']) (r := .lit (.int ['3'])) (writes_of (by krfl))
    noDefault (t := j!"-5.50E+1") (b := .int 3) (by rfl) (by rfl) numeral_5_50 (.int (by decide))
    ⟨-55, by norm_num, by decide⟩]
  simp [Rel]; norm_num

example : Numeral j!"12.5" (decVal ⟨125, 1⟩) := C50_decimal_text (d := ⟨125, 1⟩) (by show _ ≤ _; decide)

end BoolParser
