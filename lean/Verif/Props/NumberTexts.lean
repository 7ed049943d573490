import Verif.Lemmas.NumberTexts
import Verif.Props.Comparison
import Verif.Props.Conditions
/-!
# C92 Which texts count as numbers

A text against a number under `<`, `<=`, `>`, `>=` and in range tests. The texts that stand for numbers are
described by `Spec.Numeral` (Verif/Spec/Numbers.lean): a sign, digits of any script with or without a point, an
exponent.
-/

namespace BoolParser
open Spec

/-- **C92.** Ordering any text against a number gives a truth value exactly if the text stands for a number that
the type of the other number can hold, and then the truth value for that number. -/
theorem C92_order {o : CmpOp} (ho : IsOrder o) {l r : Arith} {s : JStr} (h : Writes s (.cmp o l r)) {env : Env}
    {d : Data} {df : Option JStr} (hdf : DefaultOk df) {t : JStr} {b : Value} (hl : l.value env d = .ok (.str t))
    (hr : r.value env d = .ok b) {y : ℚ} (hb : Num b y) (v : Bool) :
    evaluate env s d df = .success v ↔ ∃ x, Numeral t x ∧ Accepts b x ∧ v = decide (Rel o x y) := by
  constructor
  · intro hv
    by_cases hx : ∃ x, Numeral t x ∧ Accepts b x
    · obtain ⟨x, hx, ha⟩ := hx
      rw [C50_numeric_text_partial ho h hdf hl hr hx hb ha] at hv
      injection hv with hv
      exact ⟨x, hx, ha, hv.symm⟩
    · rw [cmp_text h hdf hl hr, compare_no_number ho.1 ho.2 hb (fun x h1 h2 => hx ⟨x, h1, h2⟩)] at hv
      cases hv
  · rintro ⟨x, hx, ha, rfl⟩
    exact C50_numeric_text_partial ho h hdf hl hr hx hb ha

/-- **C92**, all other texts: the comparison fails with `InvalidDataType`. -/
theorem C92_otherwise {o : CmpOp} (ho : IsOrder o) {l r : Arith} {s : JStr} (h : Writes s (.cmp o l r)) {env : Env}
    {d : Data} {df : Option JStr} (hdf : DefaultOk df) {t : JStr} {b : Value} (hl : l.value env d = .ok (.str t))
    (hr : r.value env d = .ok b) {y : ℚ} (hb : Num b y) (hno : ∀ x, Numeral t x → ¬ Accepts b x) :
    evaluate env s d df = .failure .invalidDataType := by
  rw [cmp_text h hdf hl hr, compare_no_number ho.1 ho.2 hb hno]; rfl

/-- **C92**, the text on the right. -/
theorem C92_order_right {o : CmpOp} (ho : IsOrder o) {l r : Arith} {s : JStr} (h : Writes s (.cmp o l r)) {env : Env}
    {d : Data} {df : Option JStr} (hdf : DefaultOk df) {t : JStr} {a : Value} (hl : l.value env d = .ok a)
    (hr : r.value env d = .ok (.str t)) {x : ℚ} (ha : Num a x) :
    (∀ v, evaluate env s d df = .success v ↔ ∃ y, Numeral t y ∧ Accepts a y ∧ v = decide (Rel o x y)) ∧
    ((∀ y, Numeral t y → ¬ Accepts a y) → evaluate env s d df = .failure .invalidDataType) := by
  have hm : IsOrder (mirror o) := by cases o <;> first | decide | exact ho
  have fails : (∀ y, Numeral t y → ¬ Accepts a y) → evaluate env s d df = .failure .invalidDataType := by
    intro hno
    rw [cmp_text h hdf hl hr, compare_mirror ho (num_ne_null ha) (by simp), compare_no_number hm.1 hm.2 ha hno]; rfl
  refine ⟨fun v => ⟨?_, ?_⟩, fails⟩
  · intro hv
    by_cases hy : ∃ y, Numeral t y ∧ Accepts a y
    · obtain ⟨y, hy, hacc⟩ := hy
      rw [C50_numeric_text_right_partial ho h hdf hl hr ha hy hacc] at hv
      injection hv with hv
      exact ⟨y, hy, hacc, hv.symm⟩
    · rw [fails (fun y h1 h2 => hy ⟨y, h1, h2⟩)] at hv
      cases hv
  · rintro ⟨y, hy, hacc, rfl⟩
    exact C50_numeric_text_right_partial ho h hdf hl hr ha hy hacc

/-- **C92**, range tests: a text is in the range if it stands for a number between the bounds which the types of
both bounds can hold; any other text makes the test fail. -/
theorem C92_range {f : JStr} {lo hi : Lit} {s : JStr} (h : Writes s (.range f lo hi)) {env : Env} {d : Data}
    {df : Option JStr} (hdf : DefaultOk df) {t : JStr} (hf : (Arith.field f).value env d = .ok (.str t)) {x y : ℚ}
    (hlo : Num lo.value x) (hhi : Num hi.value y) :
    (∀ v, evaluate env s d df = .success v ↔
      ∃ z, Numeral t z ∧ Accepts lo.value z ∧ Accepts hi.value z ∧ v = decide (x ≤ z ∧ z ≤ y)) ∧
    ((∀ z, Numeral t z → ¬ (Accepts lo.value z ∧ Accepts hi.value z)) →
      evaluate env s d df = .failure .invalidDataType) := by
  have hf' : Arith.fieldValue f d = .ok (.str t) := hf
  have key : evaluate env s d df = Outcome.ofResult (do
      let a ← Cond.compare .ge (.str t) lo.value
      let b ← Cond.compare .le (.str t) hi.value
      pure (a && b)) := by
    rw [h.eval env d hdf, Cond.meaning, hf', ok_bind]
  have good : ∀ z, Numeral t z → Accepts lo.value z → Accepts hi.value z →
      evaluate env s d df = .success (decide (x ≤ z ∧ z ≤ y)) := by
    intro z hz h1 h2
    rw [key, compare_numtext (o := .ge) (by decide) (by decide) hz hlo h1, ok_bind,
      compare_numtext (o := .le) (by decide) (by decide) hz hhi h2, ok_bind]
    simp only [Rel, ge_iff_le, Bool.decide_and]; rfl
  have bad : (∀ z, Numeral t z → ¬ (Accepts lo.value z ∧ Accepts hi.value z)) →
      evaluate env s d df = .failure .invalidDataType := by
    intro hno
    rw [key]
    by_cases hz : ∃ z, Numeral t z ∧ Accepts lo.value z
    · obtain ⟨z, hz, h1⟩ := hz
      rw [compare_numtext (o := .ge) (by decide) (by decide) hz hlo h1, ok_bind,
        compare_no_number (o := .le) (by decide) (by decide) hhi (fun z' hz' h2 => by
          cases numeral_unique hz hz'
          exact hno z hz ⟨h1, h2⟩)]
      rfl
    · rw [compare_no_number (o := .ge) (by decide) (by decide) hlo (fun z h1 h2 => hz ⟨z, h1, h2⟩)]
      rfl
  refine ⟨fun v => ⟨?_, ?_⟩, bad⟩
  · intro hv
    by_cases hz : ∃ z, Numeral t z ∧ Accepts lo.value z ∧ Accepts hi.value z
    · obtain ⟨z, hz, h1, h2⟩ := hz
      rw [good z hz h1 h2] at hv
      injection hv with hv
      exact ⟨z, hz, h1, h2, hv.symm⟩
    · rw [bad (fun z h1 h2 => hz ⟨z, h1, h2.1, h2.2⟩)] at hv
      cases hv
  · rintro ⟨z, hz, h1, h2, rfl⟩
    exact good z hz h1 h2

/-- **C92**, scripts: writing the digits of the text in another script changes nothing. -/
theorem C92_scripts {o : CmpOp} (ho : IsOrder o) {l r : Arith} {s : JStr} (h : Writes s (.cmp o l r)) {env : Env}
    {d d' : Data} {df : Option JStr} (hdf : DefaultOk df) {t t' : JStr} (ht : Rewritten t t') {b : Value}
    (hl : l.value env d = .ok (.str t)) (hl' : l.value env d' = .ok (.str t')) (hr : r.value env d = .ok b)
    (hr' : r.value env d' = .ok b) {y : ℚ} (hb : Num b y) : evaluate env s d df = evaluate env s d' df := by
  by_cases hx : ∃ x, Numeral t x ∧ Accepts b x
  · obtain ⟨x, hx, ha⟩ := hx
    rw [C50_numeric_text_partial ho h hdf hl hr hx hb ha,
      C50_numeric_text_partial ho h hdf hl' hr' ((rewritten_numeral ht).mp hx) hb ha]
  · have h1 : ∀ x, Numeral t x → ¬ Accepts b x := fun x h1 h2 => hx ⟨x, h1, h2⟩
    rw [C92_otherwise ho h hdf hl hr hb h1,
      C92_otherwise ho h hdf hl' hr' hb (fun x hx' => h1 x ((rewritten_numeral ht).mpr hx'))]

/-- **C92**, equality compares texts: `12` in Devanagari digits is not less than 12, not greater than 12, and not
equal to 12. -/
theorem C92_equality (env : Env) :
    evaluate env j!"a < 12" [(['a'], .str j!"१२")] none = .success false ∧
    evaluate env j!"a > 12" [(['a'], .str j!"१२")] none = .success false ∧
    evaluate env j!"a = 12" [(['a'], .str j!"१२")] none = .success false :=
  ⟨by krfl, by krfl, by krfl⟩

/-! ### Examples -/

/-- `.5` and `5.` are numbers, and so is `-१२.५e+1`. -/
theorem numeral_half : Numeral j!".5" (1 / 2) := by
  have := Numeral.mk (w := []) (f := j!".5") (e := []) (ws := []) (fs := [5]) .none .nil
    (.some (.cons ⟨by decide, '0', by decide, by decide⟩ .nil)) (by decide) .none
  refine cast (congrArg (Numeral _) ?_) this
  norm_num [Sign.factor, numberOf]

theorem numeral_five : Numeral j!"5." 5 := by
  have := Numeral.mk (w := ['5']) (f := ['.']) (e := []) (ws := [5]) (fs := []) .none
    (.cons ⟨by decide, '0', by decide, by decide⟩ .nil) (.some .nil) (by decide) .none
  refine cast (congrArg (Numeral _) ?_) this
  norm_num [Sign.factor, numberOf]

theorem numeral_devanagari : Numeral j!"-१२.५e+1" (-125) := by
  have := Numeral.mk (w := j!"१२") (f := j!".५") (e := j!"e+1") (ws := [1, 2]) (fs := [5]) .minus
    (.cons ⟨by decide, '०', by decide +kernel, by decide⟩ (.cons ⟨by decide, '०', by decide +kernel, by decide⟩ .nil))
    (.some (.cons ⟨by decide, '०', by decide +kernel, by decide⟩ .nil)) (by decide)
    (.some .plus (s := ['1']) (ds := [1]) (.inl rfl) (by decide) (.cons ⟨by decide, '0', by decide, by decide⟩ .nil)
      (by decide) (by decide))
  refine cast (congrArg (Numeral _) ?_) this
  norm_num [Sign.factor, numberOf]

example (env : Env) : evaluate env j!"a < 3" [(['a'], .str j!"-१२.५e+1")] none = .success true :=
  (C92_order (o := .lt) (by decide) (l := .field ['a']) (r := .lit (.int ['3'])) (writes_of (by krfl)) noDefault
    (t := j!"-१२.५e+1") (b := .int 3) (by rfl) (by rfl) (.int (by decide)) true).mpr
    ⟨-125, numeral_devanagari, ⟨-125, by norm_num, by decide⟩, by simp [Rel]; norm_num⟩

example (env : Env) : evaluate env j!"a 1 TO 9.5" [(['a'], .str j!"5.")] none = .success true :=
  ((C92_range (f := ['a']) (lo := .int ['1']) (hi := .dec ['9'] ['5']) (writes_of (by krfl)) noDefault (t := j!"5.")
    (by rfl) (x := 1) (y := 95 / 10) (.int (by decide)) (by
      refine cast (congrArg (Num _) ?_) (Num.dec ⟨95, 1⟩)
      norm_num [decVal])).1 true).mpr
    ⟨5, numeral_five, ⟨5, by norm_num, by decide⟩, trivial, by norm_num⟩

/-- Texts that are no numbers: too large an exponent, two points, a space. -/
example (env : Env) : evaluate env j!"a < 3" [(['a'], .str j!"1E2147483648")] none = .failure .invalidDataType := by krfl
example (env : Env) : evaluate env j!"a < 3" [(['a'], .str j!"1.2.3")] none = .failure .invalidDataType := by krfl
example (env : Env) : evaluate env j!"a < 3" [(['a'], .str j!" 1")] none = .failure .invalidDataType := by krfl

example : Rewritten j!"1२" j!"१2" :=
  .cons (.inr ⟨1, ⟨by decide, '0', by decide, by decide⟩, ⟨by decide, '०', by decide +kernel, by decide⟩⟩)
    (.cons (.inr ⟨2, ⟨by decide, '०', by decide +kernel, by decide⟩, ⟨by decide, '0', by decide, by decide⟩⟩) .nil)

end BoolParser
