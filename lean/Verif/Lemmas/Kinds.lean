import Verif.Lemmas.Compare
import Verif.Spec.Kinds
/-!
# Comparisons of numbers, texts, dates and versions
-/

namespace BoolParser
open Spec

/-- A comparison whose checks pass is the test on the coerced values. -/
theorem compare_via (o : CmpOp) {a b : Value} (t : DataType) {r : Ordering}
    (ha : getDataType a ≠ .boolean) (hb : getDataType b ≠ .boolean)
    (hv : isValid (getDataType a) a = .ok true)
    (hc : comparableType (getDataType a) (getDataType b) = t)
    (hor : orderType (getDataType a) (getDataType b) = t)
    (hval : validate a (getDataType a) b (getDataType b) = .ok ())
    (hp : comparePrim t a b = .ok r) : Cond.compare o a b = .ok (o.test r) := by
  by_cases ho : o = .eq ∨ o = .ne
  · rw [compare_eqop ho, hv, hc, hp]; rfl
  · rw [not_or] at ho
    rw [compare_ordop ho.1 ho.2, if_neg ha, hv, ok_bind, if_neg hb, hval, hor, hp]; rfl

theorem validate_same {a b : Value} {s t : DataType} (h : s.numeric = t.numeric) : validate a s b t = .ok () := by
  unfold validate; rw [h]; simp

/-! ### Numbers -/

theorem num_type {a : Value} {x : ℚ} (h : Num a x) :
    getDataType a = .integer ∨ getDataType a = .long ∨ getDataType a = .decimal := by
  cases h <;> simp [getDataType]

theorem num_asDec {a : Value} {x : ℚ} (h : Num a x) : ∃ e, asDec a = .ok (some e) ∧ decVal e = x := by
  cases h with
  | @int n h => exact ⟨⟨n, 0⟩, by simp [asDec, Value.text, Dec.parse_intStr], by simp [decVal]⟩
  | @long n h => exact ⟨⟨n, 0⟩, by simp [asDec, Value.text, Dec.parse_intStr], by simp [decVal]⟩
  | dec d => exact ⟨d, rfl, rfl⟩
  | dbl h =>
    obtain ⟨e, h1, h2⟩ := Numeral.parse h
    exact ⟨e, by simp [asDec, Value.text, h1], h2⟩
  | flt h =>
    obtain ⟨e, h1, h2⟩ := Numeral.parse h
    exact ⟨e, by simp [asDec, Value.text, h1], h2⟩

theorem num_asLong {a : Value} {x : ℚ} (h : Num a x) (ht : getDataType a ≠ .decimal) :
    ∃ n : Int, asLong a = .ok (some n) ∧ (n : ℚ) = x ∧ InInt64 n := by
  cases h with
  | int h => exact ⟨_, by simp [asLong, Value.text, Dec.parse_intStr, Dec.toInt64?_scale0 h.to64], rfl, h.to64⟩
  | long h => exact ⟨_, rfl, rfl, h⟩
  | dec d => exact absurd rfl ht
  | dbl h => exact absurd rfl ht
  | flt h => exact absurd rfl ht

theorem num_asInt {a : Value} {x : ℚ} (h : Num a x) (ht : getDataType a = .integer) :
    ∃ n : Int, asInt a = .ok (some n) ∧ (n : ℚ) = x ∧ InInt32 n := by
  cases h with
  | int h => exact ⟨_, rfl, rfl, h⟩
  | _ => cases ht

theorem num_valid {a : Value} {x : ℚ} (h : Num a x) : isValid (getDataType a) a = .ok true := by
  obtain ⟨e, he, _⟩ := num_asDec h
  cases h with
  | int h => rfl
  | long h => rfl
  | dec d => rfl
  | dbl h => simp only [getDataType, isValid, he]; rfl
  | flt h => simp only [getDataType, isValid, he]; rfl

theorem num_ne_null {a : Value} {x : ℚ} (h : Num a x) : a ≠ .null := by cases h <;> simp

theorem compare_int_cast (m n : Int) : compare m n = _root_.cmp (m : ℚ) (n : ℚ) := by
  rw [← cmp_eq_compare]
  unfold _root_.cmp cmpUsing
  simp

theorem compare_num (o : CmpOp) {a b : Value} {x y : ℚ} (ha : Num a x) (hb : Num b y) :
    Cond.compare o a b = .ok (decide (Rel o x y)) := by
  rw [← test_cmp]
  have nb : ∀ {c : Value} {z : ℚ}, Num c z → getDataType c ≠ .boolean := by
    intro c z h; cases h <;> simp [getDataType]
  have hval : validate a (getDataType a) b (getDataType b) = .ok () := by
    apply validate_same
    rcases num_type ha with h | h | h <;> rcases num_type hb with h' | h' | h' <;> rw [h, h'] <;> rfl
  obtain ⟨da, ea, va⟩ := num_asDec ha
  obtain ⟨db, eb, vb⟩ := num_asDec hb
  have hdec : comparePrim .decimal a b = .ok (_root_.cmp x y) := by
    unfold comparePrim both
    rw [ea, eb]
    show Except.ok (Dec.cmp da db) = _
    rw [Dec.cmp_eq, va, vb]
  have hlong : getDataType a ≠ .decimal → getDataType b ≠ .decimal → comparePrim .long a b = .ok (_root_.cmp x y) := by
    intro h1 h2
    obtain ⟨m, em, vm, _⟩ := num_asLong ha h1
    obtain ⟨n, en, vn, _⟩ := num_asLong hb h2
    unfold comparePrim both
    rw [em, en]
    show Except.ok (compare m n) = _
    rw [compare_int_cast, vm, vn]
  have hint : getDataType a = .integer → getDataType b = .integer → comparePrim .integer a b = .ok (_root_.cmp x y) := by
    intro h1 h2
    obtain ⟨m, em, vm, _⟩ := num_asInt ha h1
    obtain ⟨n, en, vn, _⟩ := num_asInt hb h2
    unfold comparePrim both
    rw [em, en]
    show Except.ok (compare m n) = _
    rw [compare_int_cast, vm, vn]
  have key : ∀ t, comparableType (getDataType a) (getDataType b) = t → orderType (getDataType a) (getDataType b) = t →
      comparePrim t a b = .ok (_root_.cmp x y) → Cond.compare o a b = .ok (o.test (_root_.cmp x y)) :=
    fun t h1 h2 h3 => compare_via o t (nb ha) (nb hb) (num_valid ha) h1 h2 hval h3
  rcases num_type ha with h | h | h <;> rcases num_type hb with h' | h' | h'
  · exact key .integer (by rw [h, h']; rfl) (by rw [h, h']; rfl) (hint h h')
  · exact key .long (by rw [h, h']; rfl) (by rw [h, h']; rfl) (hlong (by simp [h]) (by simp [h']))
  · exact key .decimal (by rw [h, h']; rfl) (by rw [h, h']; rfl) hdec
  · exact key .long (by rw [h, h']; rfl) (by rw [h, h']; rfl) (hlong (by simp [h]) (by simp [h']))
  · exact key .long (by rw [h, h']; rfl) (by rw [h, h']; rfl) (hlong (by simp [h]) (by simp [h']))
  · exact key .decimal (by rw [h, h']; rfl) (by rw [h, h']; rfl) hdec
  · exact key .decimal (by rw [h, h']; rfl) (by rw [h, h']; rfl) hdec
  · exact key .decimal (by rw [h, h']; rfl) (by rw [h, h']; rfl) hdec
  · exact key .decimal (by rw [h, h']; rfl) (by rw [h, h']; rfl) hdec

/-! ### Texts -/

theorem cmpNats_eq (a b : List Nat) :
    cmpNats a b = @_root_.cmp (List ℕ) List.instLinearOrder.toLT LinearOrder.toDecidableLT a b := by
  have hl : ∀ {a b : List ℕ}, a < b → @_root_.cmp (List ℕ) List.instLinearOrder.toLT LinearOrder.toDecidableLT a b = .lt :=
    fun h => (cmp_eq_lt_iff _ _).mpr h
  have hg : ∀ {a b : List ℕ}, b < a → @_root_.cmp (List ℕ) List.instLinearOrder.toLT LinearOrder.toDecidableLT a b = .gt :=
    fun h => (cmp_eq_gt_iff _ _).mpr h
  have he : ∀ {a : List ℕ}, @_root_.cmp (List ℕ) List.instLinearOrder.toLT LinearOrder.toDecidableLT a a = .eq :=
    fun {a} => (cmp_eq_eq_iff a a).mpr rfl
  induction a generalizing b with
  | nil =>
    cases b with
    | nil => rw [he]; rfl
    | cons y ys => rw [hl (List.nil_lt_cons y ys)]; rfl
  | cons x xs ih =>
    cases b with
    | nil => rw [hg (List.nil_lt_cons x xs)]; rfl
    | cons y ys =>
      simp only [cmpNats]
      rcases Nat.lt_trichotomy x y with h | h | h
      · rw [if_pos h, hl (List.cons_lt_cons_iff.mpr (.inl h))]
      · subst h
        rw [if_neg (by omega), if_neg (by omega), ih]
        rcases lt_trichotomy xs ys with h | h | h
        · rw [hl h, hl (List.cons_lt_cons_iff.mpr (.inr ⟨rfl, h⟩))]
        · subst h; rw [he, he]
        · rw [hg h, hg (List.cons_lt_cons_iff.mpr (.inr ⟨rfl, h⟩))]
      · rw [if_neg (by omega), if_pos h, hg (List.cons_lt_cons_iff.mpr (.inl h))]

theorem char_range (c : Char) : c.toNat < 55296 ∨ (57343 < c.toNat ∧ c.toNat < 1114112) := by
  have h := c.valid
  simp only [UInt32.isValidChar, Nat.isValidChar] at h
  exact h

theorem utf16Char_inj {c c' : Char} {r r' : List Nat} (h : utf16Char c ++ r = utf16Char c' ++ r') : c = c' ∧ r = r' := by
  have key : ∀ {c c' : Char}, c.toNat = c'.toNat → c = c' := by
    intro c c' h; exact Char.toNat_inj.mp h
  unfold utf16Char at h
  have hc := char_range c
  have hc' := char_range c'
  split at h <;> split at h
  · simp at h; exact ⟨key h.1, h.2⟩
  · simp at h; omega
  · simp at h; omega
  · simp at h; exact ⟨key (by omega), h.2.2⟩

theorem utf16_inj {s t : JStr} (h : utf16 s = utf16 t) : s = t := by
  unfold utf16 at h
  induction s generalizing t with
  | nil =>
    cases t with
    | nil => rfl
    | cons c cs =>
      simp only [List.flatMap_nil, List.flatMap_cons] at h
      unfold utf16Char at h; split at h <;> simp at h
  | cons c cs ih =>
    cases t with
    | nil =>
      simp only [List.flatMap_nil, List.flatMap_cons] at h
      unfold utf16Char at h; split at h <;> simp at h
    | cons c' cs' =>
      simp only [List.flatMap_cons] at h
      obtain ⟨h1, h2⟩ := utf16Char_inj h
      rw [h1, ih h2]

theorem takeWhile_split (p : Char → Bool) (s : JStr) : s = s.takeWhile p ++ s.dropWhile p :=
  (List.takeWhile_append_dropWhile).symm

theorem yearOfEra_shape {s : JStr} {y : Nat} {r : JStr} (h : parseYearOfEra s = some (y, r)) :
    ∃ ds, IsDigits ds ∧ (s = ds ++ r ∨ s = '+' :: (ds ++ r)) := by
  have main : ∀ (cs : JStr), (∃ n, ((cs.takeWhile isDigit).take 19).length = n ∧ 0 < n) →
      cs.drop ((cs.takeWhile isDigit).take 19).length = r →
      IsDigits ((cs.takeWhile isDigit).take 19) ∧ cs = (cs.takeWhile isDigit).take 19 ++ r := by
    intro cs ⟨n, hn, hpos⟩ hr
    refine ⟨⟨?_, ?_⟩, ?_⟩
    · intro e; rw [e] at hn; simp at hn; omega
    · rw [List.all_eq_true]
      intro c hc
      have := List.mem_of_mem_take hc
      have key : ∀ (l : JStr), c ∈ l.takeWhile isDigit → isDigit c = true := by
        intro l
        induction l with
        | nil => intro h; cases h
        | cons x xs ih =>
          intro h
          rw [List.takeWhile_cons] at h
          split at h
          · rcases List.mem_cons.mp h with e | e
            · subst e; assumption
            · exact ih e
          · cases h
      exact key _ this
    · have hp : (cs.takeWhile isDigit).take 19 <+: cs :=
        (List.take_prefix _ _).trans (List.takeWhile_prefix _)
      have := List.prefix_iff_eq_append.mp hp
      rw [hr] at this; exact this.symm
  unfold parseYearOfEra at h
  split at h
  · cases h
  · rename_i cs
    simp only at h
    split at h
    · rename_i hc
      injection h with h; injection h with h1 h2
      obtain ⟨a, b⟩ := main cs ⟨_, rfl, by omega⟩ h2
      exact ⟨_, a, .inr (congrArg _ b)⟩
    · cases h
  · simp only at h
    split at h
    · rename_i hc
      injection h with h; injection h with h1 h2
      obtain ⟨a, b⟩ := main s ⟨_, rfl, by omega⟩ h2
      exact ⟨_, a, .inl b⟩
    · cases h

theorem lit_shape {c : Char} {s r : JStr} (h : lit c s = some r) : s = c :: r := by
  cases s with
  | nil => cases h
  | cons d cs =>
    simp only [lit] at h; split at h
    · rename_i e; injection h with h; rw [e, h]
    · cases h

theorem two_shape {s r : JStr} {n : Nat} (h : two s = some (n, r)) : ∃ ds, IsDigits ds ∧ s = ds ++ r := by
  unfold two at h
  split at h
  · rename_i a b cs
    split at h
    · rename_i hd
      simp at hd
      injection h with h; injection h with h1 h2
      exact ⟨[a, b], ⟨by simp, by simp [hd.1, hd.2]⟩, by rw [← h2]; rfl⟩
    · cases h
  · cases h

theorem datePart_shape {s : JStr} {x : Date × JStr} (h : parseDatePart s = some x) : DateLike s := by
  unfold parseDatePart at h
  simp only [Option.bind_eq_bind, Option.bind_eq_some_iff] at h
  obtain ⟨⟨y, s1⟩, h1, s2, h2, ⟨m, s3⟩, h3, s4, h4, ⟨d, s5⟩, h5, _⟩ := h
  obtain ⟨ys, hy, e1⟩ := yearOfEra_shape h1
  have e2 := lit_shape h2
  obtain ⟨ms, hm, e3⟩ := two_shape h3
  have e4 := lit_shape h4
  obtain ⟨dds, hd, e5⟩ := two_shape h5
  simp only at e2 e4
  subst e2 e3 e4 e5
  exact ⟨ys, ms, dds, s5, hy, hm, hd, e1⟩

theorem plain_type {s : JStr} (h : ¬ DateLike s) : getDataType (.str s) = .string := by
  have hp : parseDatePart s = none := by
    cases hd : parseDatePart s with
    | none => rfl
    | some x => exact absurd (datePart_shape hd) h
  have h1 : parseDateTime s = none := by unfold parseDateTime; rw [hp]; rfl
  have h2 : parseDate s = none := by unfold parseDate; rw [hp]
  simp [getDataType, h1, h2]

/-! ### Dates -/

theorem dateOf_as {a : Value} {d : Date} (h : DateOf a d) : asDate a = .ok (some d) := by
  cases h with
  | obj => rfl
  | text h => simp only [asDate, toText, Value.text, ok_bind, parseDate_text h]; rfl

theorem dateText_not_dt {d : Date} (h : RealDate d) : parseDateTime (dateText d) = none := by
  have := datePart_text h []
  rw [List.append_nil] at this
  unfold parseDateTime; rw [this]; rfl

theorem dateOf_type {a : Value} {d : Date} (h : DateOf a d) : getDataType a = .date := by
  cases h with
  | obj => rfl
  | text h => simp [getDataType, dateText_not_dt h, parseDate_text h]

theorem thenCmp_eq {α β : Type} [LinearOrder α] [LinearOrder β] (x x' : α) (y y' : β) :
    (_root_.cmp x x').then (_root_.cmp y y') = _root_.cmp (toLex (x, y)) (toLex (x', y')) := by
  have hl : ∀ {γ : Type} [LinearOrder γ] {a b : γ}, a < b → _root_.cmp a b = .lt :=
    fun h => (cmp_eq_lt_iff _ _).mpr h
  have hg : ∀ {γ : Type} [LinearOrder γ] {a b : γ}, b < a → _root_.cmp a b = .gt :=
    fun h => (cmp_eq_gt_iff _ _).mpr h
  rcases lt_trichotomy x x' with h | h | h
  · have : toLex (x, y) < toLex (x', y') := Prod.Lex.toLex_lt_toLex.mpr (.inl h)
    rw [hl h, hl this]; rfl
  · subst h
    rw [cmp_self_eq_eq]
    rcases lt_trichotomy y y' with h | h | h
    · have : toLex (x, y) < toLex (x, y') := Prod.Lex.toLex_lt_toLex.mpr (.inr ⟨rfl, h⟩)
      rw [hl h, hl this]; rfl
    · subst h; rw [cmp_self_eq_eq, cmp_self_eq_eq]; rfl
    · have : toLex (x, y') < toLex (x, y) := Prod.Lex.toLex_lt_toLex.mpr (.inr ⟨rfl, h⟩)
      rw [hg h, hg this]; rfl
  · have : toLex (x', y') < toLex (x, y) := Prod.Lex.toLex_lt_toLex.mpr (.inl h)
    rw [hg h, hg this]; rfl

theorem cmpDate_eq (d e : Date) : cmpDate d e = _root_.cmp (dateKey d) (dateKey e) := by
  unfold cmpDate dateKey
  rw [← cmp_eq_compare, ← cmp_eq_compare, ← cmp_eq_compare, thenCmp_eq, thenCmp_eq]

theorem cmpDateTime_eq (d e : DateTime) : cmpDateTime d e = _root_.cmp (dateTimeKey d) (dateTimeKey e) := by
  unfold cmpDateTime dateTimeKey
  rw [← cmp_eq_compare, ← cmp_eq_compare, ← cmp_eq_compare, ← cmp_eq_compare, cmpDate_eq, thenCmp_eq, thenCmp_eq,
    thenCmp_eq, thenCmp_eq]

theorem compare_date (o : CmpOp) {a b : Value} {d e : Date} (ha : DateOf a d) (hb : DateOf b e) :
    Cond.compare o a b = .ok (decide (Rel o (dateKey d) (dateKey e))) := by
  rw [← test_cmp, ← cmpDate_eq]
  have h1 := dateOf_type ha
  have h2 := dateOf_type hb
  refine compare_via o .date (by simp [h1]) (by simp [h2]) ?_ (by rw [h1, h2]; rfl) (by rw [h1, h2]; rfl)
    (validate_same (by rw [h1, h2])) ?_
  · rw [h1]; simp only [isValid, dateOf_as ha]; rfl
  · unfold comparePrim both; rw [dateOf_as ha, dateOf_as hb]; rfl

theorem dateTimeOf_as {a : Value} {t : DateTime} (h : DateTimeOf a t) : asDateTime a = .ok (some t) := by
  cases h with
  | obj => rfl
  | text h ht =>
    obtain ⟨h1, h2, h3, h4⟩ := ht
    simp only [asDateTime, toText, Value.text, ok_bind, parseDateTime_text h h1 h2 h3 h4]; rfl

theorem dateTimeOf_type {a : Value} {t : DateTime} (h : DateTimeOf a t) : getDataType a = .datetime := by
  cases h with
  | obj => rfl
  | text h ht =>
    obtain ⟨h1, h2, h3, h4⟩ := ht
    simp [getDataType, parseDateTime_text h h1 h2 h3 h4]

theorem compare_datetime (o : CmpOp) {a b : Value} {d e : DateTime} (ha : DateTimeOf a d) (hb : DateTimeOf b e) :
    Cond.compare o a b = .ok (decide (Rel o (dateTimeKey d) (dateTimeKey e))) := by
  rw [← test_cmp, ← cmpDateTime_eq]
  have h1 := dateTimeOf_type ha
  have h2 := dateTimeOf_type hb
  refine compare_via o .datetime (by simp [h1]) (by simp [h2]) ?_ (by rw [h1, h2]; rfl) (by rw [h1, h2]; rfl)
    (validate_same (by rw [h1, h2])) ?_
  · rw [h1]; simp only [isValid, dateTimeOf_as ha]; rfl
  · unfold comparePrim both; rw [dateTimeOf_as ha, dateTimeOf_as hb]; rfl

end BoolParser
