import Verif.Lemmas.Mixed
import Verif.Props.Comparison
/-!
# Comparisons of values of different kinds

C71, C72.
-/

namespace BoolParser
open Spec

/-! ## C71 Kinds are not mixed up silently -/

/-- **C71.** Comparing two values of different kinds among truth values, numbers, dates and date-times (objects, or
texts in the two date formats) is a failure, whatever the operator and the order of the operands. -/
theorem C71_kinds {o : CmpOp} {l r : Arith} {s : JStr} (h : Writes s (.cmp o l r)) {env : Env} {d : Data}
    {df : Option JStr} (hdf : DefaultOk df) {a b : Value} (hl : l.value env d = .ok a) (hr : r.value env d = .ok b)
    {k k' : Sort'} (ha : OfSort a k) (hb : OfSort b k') (hk : k ≠ k') :
    evaluate env s d df = .failure .invalidDataType := by
  rw [cmp_text h hdf hl hr, compare_sorts o ha hb hk]; rfl

/-- **C71**, values: the operators themselves. -/
theorem C71_values (o : CmpOp) {a b : Value} {k k' : Sort'} (ha : OfSort a k) (hb : OfSort b k') (hk : k ≠ k') :
    Cond.compare o a b = .error .invalidDataType := compare_sorts o ha hb hk

/-- A date field against a number, whatever the date. -/
example (env : Env) (x : Date) : evaluate env j!"born != 2000" [(j!"born", .date x)] none = .failure .invalidDataType :=
  C71_kinds (o := .ne) (l := .field j!"born") (r := .lit (.int j!"2000")) (writes_of (by krfl)) noDefault
    (a := .date x) (b := .int 2000) (by rfl) (by rfl) (.day (.obj x)) (.number (.int (by decide))) (by decide)

/-- `flag = 1` with a truth value. -/
example (env : Env) (x : Bool) : evaluate env j!"flag = 1" [(j!"flag", .bool x)] none = .failure .invalidDataType :=
  C71_kinds (o := .eq) (l := .field j!"flag") (r := .lit (.int j!"1")) (writes_of (by krfl)) noDefault
    (a := .bool x) (b := .int 1) (by rfl) (by rfl) (.truth x) (.number (.int (by decide))) (by decide)

/-- A date text against a date-time. -/
example (env : Env) (x : DateTime) :
    evaluate env j!"t >= 2023-05-06" [(j!"t", .datetime x)] none = .failure .invalidDataType :=
  C71_kinds (o := .ge) (l := .field j!"t") (r := .lit (.date ⟨2023, 5, 6⟩)) (writes_of (by krfl)) noDefault
    (a := .datetime x) (b := .date ⟨2023, 5, 6⟩) (by rfl) (by rfl) (.moment (.obj x)) (.day (.obj _)) (by decide)

/-! ## C72 Truth values and texts -/

/-- **C72**, equality of truth values. -/
theorem C72_equal {l r : Arith} {s : JStr} (h : Writes s (.cmp .eq l r)) {env : Env} {d : Data}
    {df : Option JStr} (hdf : DefaultOk df) {x y : Bool} (hl : l.value env d = .ok (.bool x))
    (hr : r.value env d = .ok (.bool y)) : evaluate env s d df = .success (x == y) := by
  rw [cmp_text h hdf hl hr, compare_bool (.inl rfl)]; rfl

/-- **C72**, a flag: `f = true` is the value of `f`, `f = false` the opposite. -/
theorem C72_flag {f : JStr} {y : Bool} {s : JStr} (h : Writes s (.cmp .eq (.field f) (.lit (.bool y)))) {env : Env}
    {d : Data} {df : Option JStr} (hdf : DefaultOk df) {x : Bool} (hl : (Arith.field f).value env d = .ok (.bool x)) :
    evaluate env s d df = .success (if y then x else !x) := by
  rw [C72_equal h hdf hl (y := y) rfl]
  cases x <;> cases y <;> rfl

/-- **C72**, truth values have no order: the order operators fail as soon as one operand is a truth value. -/
theorem C72_no_order {o : CmpOp} (ho : IsOrder o) {l r : Arith} {s : JStr} (h : Writes s (.cmp o l r)) {env : Env}
    {d : Data} {df : Option JStr} (hdf : DefaultOk df) {a b : Value} (hl : l.value env d = .ok a)
    (hr : r.value env d = .ok b) (hx : (∃ x, a = .bool x) ∨ ∃ x, b = .bool x) :
    evaluate env s d df = .failure .invalidDataType := by
  rw [cmp_text h hdf hl hr, compare_bool_order ho.1 ho.2 (value_nn env d l a hl) (value_nn env d r b hr) hx]; rfl

/-- **C72**, an ordinary text `=` anything: the text is the printed form, character for character. -/
theorem C72_text {l r : Arith} {s : JStr} (h : Writes s (.cmp .eq l r)) {env : Env} {d : Data}
    {df : Option JStr} (hdf : DefaultOk df) {u : JStr} {b : Value} (hl : l.value env d = .ok (.str u))
    (hr : r.value env d = .ok b) (hu : Ordinary u) : evaluate env s d df = .success (decide (u = b.text)) := by
  rw [cmp_text h hdf hl hr, compare_text_left (.inl rfl) hu (value_nn env d r b hr), cmpNats_eq, test_cmp]
  show Outcome.success _ = _
  congr 1
  apply decide_eq_decide.mpr
  exact ⟨fun e => utf16_inj e, fun e => by rw [e]; rfl⟩

/-- **C72**, the text on the right. The left operand may be anything but a `Double` or `Float` whose text is no
number (NaN, Infinity). -/
theorem C72_text_right {l r : Arith} {s : JStr} (h : Writes s (.cmp .eq l r)) {env : Env} {d : Data}
    {df : Option JStr} (hdf : DefaultOk df) {u : JStr} {a : Value} (hl : l.value env d = .ok a)
    (hr : r.value env d = .ok (.str u)) (hu : Ordinary u) (ha : ∀ t, (a = .dbl t ∨ a = .flt t) → ∃ x, Num a x) :
    evaluate env s d df = .success (decide (a.text = u)) := by
  have na := value_nn env d l a hl
  have hv : isValid (getDataType a) a = .ok true := by
    rcases own_type na with e | ⟨h1, _, _⟩
    · exact e
    · cases a with
      | null => exact absurd rfl na
      | dbl t => obtain ⟨x, hx⟩ := ha t (.inl rfl); exact num_valid hx
      | flt t => obtain ⟨x, hx⟩ := ha t (.inr rfl); exact num_valid hx
      | str t =>
        simp only [getDataType] at h1
        split at h1
        · cases h1
        · split at h1 <;> cases h1
      | _ => rcases own_type na with e | ⟨h1, h2, _⟩ <;> first | exact e | (cases h1; done) | cases h2
  rw [cmp_text h hdf hl hr, compare_text_right (.inl rfl) hu na hv, cmpNats_eq, test_cmp]
  show Outcome.success _ = _
  congr 1
  apply decide_eq_decide.mpr
  exact ⟨fun e => utf16_inj e, fun e => by rw [e]; rfl⟩

/-- The text `TRUE` is not the truth value. -/
example (env : Env) : evaluate env j!"flag = true" [(j!"flag", .str j!"TRUE")] none = .success false := by
  rw [C72_text (l := .field j!"flag") (r := .lit (.bool true)) (writes_of (by krfl)) noDefault (u := j!"TRUE")
    (b := .bool true) (by rfl) (by rfl) (ordinary_plain (not_dateLike_dots (by decide)))]
  rfl

/-- `a = '5.0'` with the number 5 is false, although `a >= '5.0'` and `a <= '5.0'` are true (C50). -/
example (env : Env) : evaluate env j!"a = '5.0'" [(j!"a", .int 5)] none = .success false := by
  rw [C72_text_right (l := .field j!"a") (r := .lit (.str '\'' j!"5.0")) (writes_of (by krfl)) noDefault (u := j!"5.0")
    (a := .int 5) (by rfl) (by rfl) (ordinary_plain (not_dateLike_dots (by decide))) (by simp)]
  rfl

example (env : Env) (x : Bool) : evaluate env j!"flag = false" [(j!"flag", .bool x)] none = .success (!x) :=
  C72_flag (f := j!"flag") (y := false) (writes_of (by krfl)) noDefault (by rfl)

example (env : Env) (x : Bool) : evaluate env j!"flag > 'a'" [(j!"flag", .bool x)] none = .failure .invalidDataType :=
  C72_no_order (o := .gt) (by decide) (l := .field j!"flag") (r := .lit (.str '\'' ['a'])) (writes_of (by krfl))
    noDefault (a := .bool x) (b := .str ['a']) (by rfl) (by rfl) (.inl ⟨x, rfl⟩)

end BoolParser
