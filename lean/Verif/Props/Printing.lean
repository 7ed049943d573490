import Verif.Lemmas.Printing
import Verif.Props.Mixed
import Verif.Props.Conditions
import Verif.Props.Arithmetic
/-!
# C81 Printed forms

`Spec/Printing.lean` tells how Java prints numbers, dates, date-times, collections and maps. A text equals an object
iff it is its printed form; CONTAINS_ALL and CONTAINS_ANY compare printed forms; `+` with a text joins printed forms.
-/

namespace BoolParser
open Spec

/-- **C81.** An ordinary text equals an object iff it is the printed form of the object. -/
theorem C81_equal {l r : Arith} {s : JStr} (h : Writes s (.cmp .eq l r)) {env : Env} {d : Data}
    {df : Option JStr} (hdf : DefaultOk df) {u : JStr} {b : Value} (hl : l.value env d = .ok (.str u))
    (hr : r.value env d = .ok b) (hu : Ordinary u) (hb : RealDates b) :
    ∃ x, evaluate env s d df = .success x ∧ (x = true ↔ PrintedAs b u) :=
  ⟨_, C72_text h hdf hl hr hu, by rw [decide_eq_true_iff, printed_iff hb]⟩

/-- **C81**, the text on the right, as it is mostly written: `f = 'text'`. -/
theorem C81_equal_right {l r : Arith} {s : JStr} (h : Writes s (.cmp .eq l r)) {env : Env} {d : Data}
    {df : Option JStr} (hdf : DefaultOk df) {u : JStr} {a : Value} (hl : l.value env d = .ok a)
    (hr : r.value env d = .ok (.str u)) (hu : Ordinary u) (ha : ∀ t, (a = .dbl t ∨ a = .flt t) → ∃ x, Num a x)
    (hb : RealDates a) : ∃ x, evaluate env s d df = .success x ∧ (x = true ↔ PrintedAs a u) :=
  ⟨_, C72_text_right h hdf hl hr hu ha, by rw [decide_eq_true_iff, printed_iff hb]; exact eq_comm⟩

/-- A date-time equals its ISO text, which is no text of a moment. -/
example (env : Env) : ∃ x, evaluate env j!"at = '2023-05-06T09:05'" [(j!"at", .datetime ⟨⟨2023, 5, 6⟩, 9, 5, 0, 0⟩)] none =
    .success x ∧ (x = true ↔ PrintedAs (.datetime ⟨⟨2023, 5, 6⟩, 9, 5, 0, 0⟩) j!"2023-05-06T09:05") :=
  C81_equal_right (l := .field j!"at") (r := .lit (.str '\'' j!"2023-05-06T09:05")) (writes_of (by krfl)) noDefault
    (by rfl) (by rfl) (ordinary_of (by krfl) (by krfl)) (by rintro t (h | h) <;> cases h)
    ⟨⟨by decide, by decide⟩, by decide, by decide, by decide, by decide⟩

/-- A list field against a text. -/
example (env : Env) : ∃ x, evaluate env j!"tags = '[1, true]'" [(j!"tags", .list [.int 1, .bool true])] none = .success x ∧
    (x = true ↔ PrintedAs (.list [.int 1, .bool true]) j!"[1, true]") :=
  C81_equal_right (l := .field j!"tags") (r := .lit (.str '\'' j!"[1, true]")) (writes_of (by krfl)) noDefault
    (by rfl) (by rfl) (ordinary_plain (not_dateLike_head (by decide) (by decide))) (by rintro t (h | h) <;> cases h)
    (by simp [RealDates, AllRealDates])

example : PrintedAs (.list [.int 1, .bool true]) j!"[1, true]" :=
  .list (ts := [['1'], j!"true"]) (.cons (.int ⟨['1'], ⟨by decide, by decide, rfl⟩, rfl⟩) (.cons .yes .nil))

/-- **C81**, every object has exactly one printed form. -/
theorem C81_one {v : Value} (h : RealDates v) : ∃! t, PrintedAs v t :=
  ⟨v.text, printed_text v h, fun _ ht => printed_unique v ht (printed_text v h)⟩

/-! ### Concatenation and containment -/

/-- **C81**, `+` with a text operand joins the printed forms, left first. -/
theorem C81_joined {l r : Arith} {s : JStr} (h : WritesArith s (.op .add l r)) {env : Env} {d : Data} {a b : Value}
    (hl : l.value env d = .ok a) (hr : r.value env d = .ok b) (ha : Addable a) (hb : Addable b)
    (ht : Textual a ∨ Textual b) {t u : JStr} (h1 : PrintedAs a t) (h2 : PrintedAs b u)
    (ra : RealDates a) (rb : RealDates b) : evaluateArith env s d = .success (.str (t ++ u)) := by
  rw [C25_concat h hl hr ha hb ht, (printed_iff ra t).mp h1, (printed_iff rb u).mp h2]

/-- Two objects with the same printed form. -/
def SamePrint (x w : Value) : Prop := ∃ t, PrintedAs x t ∧ PrintedAs w t

theorem samePrint_iff {x w : Value} (hx : RealDates x) (hw : RealDates w) : SamePrint x w ↔ x.text = w.text := by
  constructor
  · rintro ⟨t, h1, h2⟩
    rw [← (printed_iff hx t).mp h1, ← (printed_iff hw t).mp h2]
  · intro e
    exact ⟨x.text, printed_text x hx, by rw [printed_iff hw]; exact e⟩

/-- **C81**, CONTAINS_ALL: every item is printed like some element. -/
theorem C81_contains_all {f : JStr} {items : List Arith} {s : JStr} (h : Writes s (.contains f .containsAll items))
    {env : Env} {d : Data} {df : Option JStr} (hdf : DefaultOk df) {xs vs : List Value}
    (hv : (Arith.field f).value env d = .ok (.list xs)) (hvs : Arith.values env d items = .ok vs)
    (ht : OneType (vs.flatMap elements)) (hx : ∀ x ∈ xs, x ≠ .null) (hw : ∀ w ∈ vs.flatMap elements, w ≠ .null)
    (rx : ∀ x ∈ xs, RealDates x) (rw' : ∀ w ∈ vs.flatMap elements, RealDates w) :
    ∃ b, evaluate env s d df = .success b ∧ (b = true ↔ ∀ w ∈ vs.flatMap elements, ∃ x ∈ xs, SamePrint x w) := by
  refine ⟨_, C12_contains_all h hdf hv hvs ht hx hw, ?_⟩
  rw [decide_eq_true_iff]
  refine forall₂_congr fun w hw => ?_
  constructor
  · rintro ⟨x, hx, e⟩; exact ⟨x, hx, (samePrint_iff (rx x hx) (rw' w hw)).mpr e⟩
  · rintro ⟨x, hx, e⟩; exact ⟨x, hx, (samePrint_iff (rx x hx) (rw' w hw)).mp e⟩

/-- **C81**, CONTAINS_ANY: some item is printed like some element. -/
theorem C81_contains_any {f : JStr} {items : List Arith} {s : JStr} (h : Writes s (.contains f .containsAny items))
    {env : Env} {d : Data} {df : Option JStr} (hdf : DefaultOk df) {xs vs : List Value}
    (hv : (Arith.field f).value env d = .ok (.list xs)) (hvs : Arith.values env d items = .ok vs)
    (ht : OneType (vs.flatMap elements)) (hx : ∀ x ∈ xs, x ≠ .null) (hw : ∀ w ∈ vs.flatMap elements, w ≠ .null)
    (rx : ∀ x ∈ xs, RealDates x) (rw' : ∀ w ∈ vs.flatMap elements, RealDates w) :
    ∃ b, evaluate env s d df = .success b ∧ (b = true ↔ ∃ w ∈ vs.flatMap elements, ∃ x ∈ xs, SamePrint x w) := by
  refine ⟨_, C12_contains_any h hdf hv hvs ht hx hw, ?_⟩
  rw [decide_eq_true_iff]
  constructor
  · rintro ⟨w, hw, x, hx, e⟩; exact ⟨w, hw, x, hx, (samePrint_iff (rx x hx) (rw' w hw)).mpr e⟩
  · rintro ⟨w, hw, x, hx, e⟩; exact ⟨w, hw, x, hx, (samePrint_iff (rx x hx) (rw' w hw)).mp e⟩

/-! ### Different objects are printed differently -/

theorem digits_minus {ds : JStr} (h : IsDigits ds) (r : JStr) : ds ≠ '-' :: r := by
  rintro rfl
  have := h.2
  simp only [List.all_cons, Bool.and_eq_true] at this
  exact absurd this.1 (by decide)

theorem whole_inj {n m : ℤ} {t : JStr} (h : WholeText n t) (h' : WholeText m t) : n = m := by
  obtain ⟨ds, h1, rfl⟩ := h
  obtain ⟨es, h2, e⟩ := h'
  unfold minus at e
  by_cases hn : n < 0 <;> by_cases hm : m < 0
  · rw [if_pos hn, if_pos hm] at e
    injection e with _ e
    have := h1.2.2.symm.trans ((congrArg digitsValue e).trans h2.2.2)
    omega
  · rw [if_pos hn, if_neg hm] at e
    exact absurd e.symm (digits_minus h2.1 _)
  · rw [if_neg hn, if_pos hm] at e
    exact absurd e (digits_minus h1.1 _)
  · rw [if_neg hn, if_neg hm] at e
    have := h1.2.2.symm.trans ((congrArg digitsValue (show ds = es from e)).trans h2.2.2)
    omega

theorem fixed_head {w n : ℕ} {ds : JStr} (h : FixedDigits (w + 1) n ds) : IsDigits ds :=
  ⟨fun e => (by have := h.2.1; rw [e] at this; cases this), h.1⟩

theorem sign_head {y : ℤ} {ds es : JStr} (h : IsDigits es) : es ≠ (if y < 0 then '-' else '+') :: ds := by
  rintro rfl
  have := h.2
  simp only [List.all_cons, Bool.and_eq_true] at this
  split at this
  · exact absurd this.1 (by decide)
  · exact absurd this.1 (by decide)

theorem year_inj {y y' : ℤ} {t : JStr} (h : YearText y t) (h' : YearText y' t) : y = y' := by
  cases h with
  | common h1 h2 h3 =>
    cases h' with
    | common h1' h2' h3' => have := h3.2.2.symm.trans h3'.2.2; omega
    | ancient h1' h2' h3' => exact absurd rfl (digits_minus (fixed_head h3) _)
    | remote h1' h3' => exact absurd rfl (sign_head (y := y') (fixed_head h3))
  | @ancient ds h1 h2 h3 =>
    generalize ht : ('-' :: ds : JStr) = t at h'
    cases h' with
    | common h1' h2' h3' => exact absurd ht.symm (digits_minus (fixed_head h3') _)
    | ancient h1' h2' h3' =>
      injection ht with _ ht; subst ht
      have := h3.2.2.symm.trans h3'.2.2; omega
    | remote h1' h3' =>
      injection ht with ht1 ht; subst ht
      have := h3.2.2.symm.trans h3'.2.2
      omega
  | @remote ds h1 h3 =>
    generalize ht : ((if y < 0 then '-' else '+') :: ds : JStr) = t at h'
    cases h' with
    | common h1' h2' h3' => exact absurd ht.symm (sign_head (fixed_head h3'))
    | ancient h1' h2' h3' =>
      injection ht with ht1 ht; subst ht
      have := h3.2.2.symm.trans h3'.2.2
      omega
    | remote h1' h3' =>
      injection ht with ht1 ht; subst ht
      have := h3.2.2.symm.trans h3'.2.2
      by_cases hy : y < 0 <;> by_cases hy' : y' < 0
      · omega
      · rw [if_pos hy, if_neg hy'] at ht1; cases ht1
      · rw [if_neg hy, if_pos hy'] at ht1; cases ht1
      · omega

theorem date_inj {d d' : Date} {t : JStr} (h : IsoDate d t) (h' : IsoDate d' t) : d = d' := by
  obtain ⟨y, m, n, h1, h2, h3, rfl⟩ := h
  obtain ⟨y', m', n', h1', h2', h3', e⟩ := h'
  obtain ⟨e1, e2⟩ := List.append_inj' e (by simp [h2.2.1, h3.2.1, h2'.2.1, h3'.2.1])
  injection e2 with _ e2
  obtain ⟨e2, e3⟩ := List.append_inj e2 (h2.2.1.trans h2'.2.1.symm)
  injection e3 with _ e3
  subst e1 e2 e3
  obtain ⟨a, b, c⟩ := d
  obtain ⟨a', b', c'⟩ := d'
  have := year_inj h1 h1'
  have := h2.2.2.symm.trans h2'.2.2
  have := h3.2.2.symm.trans h3'.2.2
  simp_all

theorem seconds_inj {t t' : DateTime} {s : JStr} (h : SecondsText t s) (h' : SecondsText t' s) :
    t.second = t'.second ∧ t.nano = t'.nano := by
  cases h with
  | none h1 h2 => cases h' with | none h1' h2' => exact ⟨h1.trans h1'.symm, h2.trans h2'.symm⟩
  | @whole a h1 h2 h3 =>
    generalize ht : (':' :: a : JStr) = s at h'
    cases h' with
    | none => cases ht
    | whole h1' h2' h3' =>
      injection ht with _ ht; subst ht
      exact ⟨h3.2.2.symm.trans h3'.2.2, h2.trans h2'.symm⟩
    | fraction h1' h2' h3' h4' h5' =>
      injection ht with _ ht
      have := congrArg List.length ht
      rw [List.length_append, h3.2.1, h2'.2.1, List.length_cons] at this
      omega
  | @fraction a f w h1 h2 h3 h4 h5 h6 h7 =>
    generalize ht : (':' :: (a ++ '.' :: f) : JStr) = s at h'
    cases h' with
    | none => cases ht
    | whole h1' h2' h3' =>
      injection ht with _ ht
      have := congrArg List.length ht
      rw [List.length_append, h2.2.1, h3'.2.1, List.length_cons] at this
      omega
    | @fraction a' f' w' h1' h2' h3' h4' h5' h6' h7' =>
      injection ht with _ ht
      obtain ⟨e1, e2⟩ := List.append_inj ht (h2.2.1.trans h2'.2.1.symm)
      injection e2 with _ e2
      subst e1 e2
      have hw : w = w' := h5.symm.trans h5'
      subst hw
      exact ⟨h2.2.2.symm.trans h2'.2.2, h6.symm.trans h6'⟩

theorem split_at {c : Char} {a b a' b' : JStr} (ha : c ∉ a) (ha' : c ∉ a') (h : a ++ c :: b = a' ++ c :: b') :
    a = a' ∧ b = b' := by
  induction a generalizing a' with
  | nil =>
    cases a' with
    | nil => injection h with _ h; exact ⟨rfl, h⟩
    | cons x xs => injection h with h _; exact absurd (by rw [h]; simp) ha'
  | cons x xs ih =>
    cases a' with
    | nil => injection h with h _; exact absurd (by rw [h]; simp) ha
    | cons y ys =>
      injection h with h1 h2
      obtain ⟨e1, e2⟩ := ih (fun hm => ha (by simp [hm])) (fun hm => ha' (by simp [hm])) h2
      exact ⟨by rw [h1, e1], e2⟩

theorem all_digits_no {ds : JStr} (h : ds.all isDigit = true) : 'T' ∉ ds := by
  intro hm; exact absurd (List.all_eq_true.mp h _ hm) (by decide)

theorem date_no_t {d : Date} {t : JStr} (h : IsoDate d t) : 'T' ∉ t := by
  obtain ⟨y, m, n, h1, h2, h3, rfl⟩ := h
  have hy : 'T' ∉ y := by
    cases h1 with
    | common _ _ h => exact all_digits_no h.1
    | ancient _ _ h => simp [all_digits_no h.1]
    | remote _ h =>
      have := all_digits_no h.1.2
      split <;> simp [this]
  simp [hy, all_digits_no h2.1, all_digits_no h3.1]

/-- **C81**, two integers, two dates or two date-times with the same printed form are the same: a text never equals
two of them. -/
theorem C81_integers {n m : ℤ} {t : JStr} (h : PrintedAs (.int n) t) (h' : PrintedAs (.int m) t) : n = m := by
  cases h with | int h => cases h' with | int h' => exact whole_inj h h'

/-- **C81**, dates. -/
theorem C81_dates {d d' : Date} {t : JStr} (h : PrintedAs (.date d) t) (h' : PrintedAs (.date d') t) : d = d' := by
  cases h with | date h => cases h' with | date h' => exact date_inj h h'

/-- **C81**, date-times, down to the nanosecond. -/
theorem C81_datetimes {x x' : DateTime} {t : JStr} (h : PrintedAs (.datetime x) t) (h' : PrintedAs (.datetime x') t) :
    x = x' := by
  cases h with
  | @datetime _ a b h1 h2 =>
    generalize ht : a ++ 'T' :: b = t at h'
    cases h' with
    | datetime h1' h2' =>
      obtain ⟨e1, e2⟩ := split_at (date_no_t h1) (date_no_t h1') ht
      subst e1 e2
      obtain ⟨p, q, r, k1, k2, k3, rfl⟩ := h2
      obtain ⟨p', q', r', k1', k2', k3', e⟩ := h2'
      obtain ⟨e1, e2⟩ := List.append_inj e (k1.2.1.trans k1'.2.1.symm)
      injection e2 with _ e2
      obtain ⟨e2, e3⟩ := List.append_inj e2 (k2.2.1.trans k2'.2.1.symm)
      subst e1 e2 e3
      obtain ⟨s1, s2⟩ := seconds_inj k3 k3'
      have s3 := date_inj h1 h1'
      have s4 := k1.2.2.symm.trans k1'.2.2
      have s5 := k2.2.2.symm.trans k2'.2.2
      cases x; cases x'
      simp_all

example : PrintedAs (.datetime ⟨⟨2024, 2, 29⟩, 9, 5, 0, 250000000⟩) j!"2024-02-29T09:05:00.250" :=
  .datetime (a := j!"2024-02-29") (b := j!"09:05:00.250")
    ⟨j!"2024", j!"02", j!"29", .common (by decide) (by decide) ⟨by decide, rfl, by krfl⟩, ⟨by decide, rfl, by krfl⟩,
      ⟨by decide, rfl, by krfl⟩, rfl⟩
    ⟨j!"09", j!"05", j!":00.250", ⟨by decide, rfl, by krfl⟩, ⟨by decide, rfl, by krfl⟩,
      .fraction (s := j!"00") (f := j!"250") (w := 3) (by decide) ⟨by decide, rfl, by krfl⟩ (by decide) (by decide) rfl
        (by krfl) (by decide), rfl⟩

/-- A time without seconds is printed without them. -/
example (env : Env) :
    evaluate env j!"t = '2024-02-29T09:05'" [(['t'], .datetime ⟨⟨2024, 2, 29⟩, 9, 5, 0, 0⟩)] none = .success true ∧
    evaluate env j!"t = '2024-02-29T09:05:00'" [(['t'], .datetime ⟨⟨2024, 2, 29⟩, 9, 5, 0, 0⟩)] none = .success false :=
  ⟨by krfl, by krfl⟩

end BoolParser
