import Verif.Spec.Reference
import Verif.Lemmas.Functions2
import Verif.Lemmas.VersionCmp
import Verif.Lemmas.Ranges
import Verif.Lemmas.Mentions
import Verif.Props.Arithmetic
import Verif.Props.Functions
/-!
# The evaluators follow the reference semantics
-/

namespace BoolParser
open Spec

theorem wrapped64_eq {k n : ℤ} (h : Wrapped64 k n) : k = wrap64 n := by
  obtain ⟨⟨h1, h2⟩, h3⟩ := h
  obtain ⟨⟨h4, h5⟩, h6⟩ := wrapped64 n
  have h7 := h3.trans h6.symm
  unfold Int.ModEq at h7
  omega

theorem wrapped32_eq {k n : ℤ} (h : Wrapped32 k n) : k = wrap32 n := by
  obtain ⟨⟨h1, h2⟩, h3⟩ := h
  obtain ⟨⟨h4, h5⟩, h6⟩ := wrapped32 n
  have h7 := h3.trans h6.symm
  unfold Int.ModEq at h7
  omega

theorem is_num {v : Value} {t : Thing} {x : ℚ} (h : Is v t) (hx : t.number = some x) : Num v x := by
  cases h <;> simp only [Thing.number, Option.some.injEq, reduceCtorEq] at hx <;> subst hx
  · exact .int ‹_›
  · exact .long ‹_›
  · exact .dec _
  · exact .dbl ‹_›
  · exact .flt ‹_›

theorem is_whole {v : Value} {t : Thing} {n : ℤ} (h : Is v t) (hn : t.whole = some n) : Whole v n := by
  cases h <;> simp only [Thing.whole, Option.some.injEq, reduceCtorEq] at hn <;> subst hn
  · exact .int ‹_›
  · exact .long ‹_›

theorem is_isDecimal {v : Value} {t : Thing} (h : Is v t) : IsDecimal v = t.isDecimal := by
  cases h with
  | date h => cases h <;> rfl
  | datetime h => cases h <;> rfl
  | _ => rfl

theorem is_isLong {v : Value} {t : Thing} (h : Is v t) : IsLong v = t.isLong := by
  cases h with
  | date h => cases h <;> rfl
  | datetime h => cases h <;> rfl
  | _ => rfl

theorem is_ofWhole {n : ℤ} (h : InInt64 n) : Is (wholeValue n) (.ofWhole n) := by
  unfold wholeValue Thing.ofWhole
  split
  · exact .int ‹_›
  · exact .long h

theorem is_int {v : Value} {n : ℤ} (h : Is v (.int n)) : v = .int n ∧ InInt32 n := by
  cases h; exact ⟨rfl, ‹_›⟩
theorem is_long {v : Value} {n : ℤ} (h : Is v (.long n)) : v = .long n ∧ InInt64 n := by
  cases h; exact ⟨rfl, ‹_›⟩
theorem is_text {v : Value} {s : JStr} (h : Is v (.text s)) : v = .str s ∧ Ordinary s := by
  cases h; exact ⟨rfl, ‹_›⟩
theorem is_truth {v : Value} {b : Bool} (h : Is v (.truth b)) : v = .bool b := by
  cases h; rfl
theorem is_date {v : Value} {x : Date} (h : Is v (.date x)) : DateOf v x := by
  cases h; assumption
theorem is_datetime {v : Value} {x : DateTime} (h : Is v (.datetime x)) : DateTimeOf v x := by
  cases h; assumption

theorem is_ne_null {v : Value} {t : Thing} (h : Is v t) : v ≠ .null := by
  cases h with
  | date h => cases h <;> simp
  | datetime h => cases h <;> simp
  | _ => simp

/-- A result like `Returns` for a number that can be given back. -/
theorem returns_is {r : Result Value} {x : ℚ} {t : Thing} (h : Returns r x) (ht : Rounded x t) :
    ∃ v, r = .ok v ∧ Is v t := by
  cases ht with
  | whole hn => exact ⟨_, h.1 _ rfl hn, .int hn⟩
  | fraction hn =>
    obtain ⟨d, h1, h2⟩ := h.2.2 hn
    exact ⟨_, h1, h2 ▸ .big d⟩

theorem boxed_is {n : ℤ} {t : Thing} (ht : Boxed n t) : Is (castWhole (longToDouble n)) t := by
  have hb : |n| ≤ 2 ^ 53 := by
    cases ht with
    | small h => unfold InInt32 at h; rw [abs_le]; omega
    | large _ h => exact h
  rw [longToDouble_small hb]
  unfold castWhole
  cases ht with
  | small h => rw [if_pos h]; exact .int h
  | large h _ =>
    rw [if_neg h]
    have := Is.big (⟨n, 0⟩ : Dec)
    simpa [decVal] using this

theorem boxed_in {n : ℤ} {t : Thing} (ht : Boxed n t) : InInt64 n := by
  cases ht with
  | small h => unfold InInt32 at h; unfold InInt64; omega
  | large _ h => rw [abs_le] at h; unfold InInt64; omega

/-! ## Operators -/

theorem operates_sound {env : Env} {o : ArithOp} (hp : o = .exp → ExactPow env) {a b t : Thing} (h : Operates o a b t) {v w : Value}
    (ha : Is v a) (hb : Is w b) : ∃ r, Arith.apply env o v w = .ok r ∧ Is r t := by
  have dec : (a.isDecimal || b.isDecimal) = true → IsDecimal v = true ∨ IsDecimal w = true := by
    intro h; rw [is_isDecimal ha, is_isDecimal hb]; simpa using h
  cases h with
  | add_whole h1 h2 h3 =>
    rw [apply_add_whole env (is_whole ha h1) (is_whole hb h2), ← wrapped64_eq h3]
    exact ⟨_, rfl, is_ofWhole h3.1⟩
  | mul_whole h1 h2 h3 =>
    rw [apply_mul_whole env (is_whole ha h1) (is_whole hb h2), ← wrapped64_eq h3]
    exact ⟨_, rfl, is_ofWhole h3.1⟩
  | sub_int h3 =>
    obtain ⟨rfl, h1⟩ := is_int ha
    obtain ⟨rfl, h2⟩ := is_int hb
    rw [apply_sub_whole env (.int h1) (.int h2), ← wrapped32_eq h3]
    exact ⟨_, rfl, .int h3.1⟩
  | sub_long h1 h2 hl h3 =>
    rw [apply_sub_whole env (is_whole ha h1) (is_whole hb h2), ← wrapped64_eq h3, is_isLong ha, is_isLong hb, if_pos hl]
    exact ⟨_, rfl, .long h3.1⟩
  | add h1 h2 hd =>
    obtain ⟨e, he, rfl⟩ := num_asDec (is_num ha h1)
    obtain ⟨f, hf, rfl⟩ := num_asDec (is_num hb h2)
    rw [apply_decimal env (.inl rfl) (is_num ha h1) (is_num hb h2) (dec hd) he hf, ← decVal_add]
    exact ⟨_, rfl, .big _⟩
  | sub h1 h2 hd =>
    obtain ⟨e, he, rfl⟩ := num_asDec (is_num ha h1)
    obtain ⟨f, hf, rfl⟩ := num_asDec (is_num hb h2)
    rw [apply_decimal env (.inr (.inl rfl)) (is_num ha h1) (is_num hb h2) (dec hd) he hf, ← decVal_sub]
    exact ⟨_, rfl, .big _⟩
  | mul h1 h2 hd =>
    obtain ⟨e, he, rfl⟩ := num_asDec (is_num ha h1)
    obtain ⟨f, hf, rfl⟩ := num_asDec (is_num hb h2)
    rw [apply_decimal env (.inr (.inr rfl)) (is_num ha h1) (is_num hb h2) (dec hd) he hf, ← decVal_mul]
    exact ⟨_, rfl, .big _⟩
  | div h1 h2 hy ht => exact returns_is (apply_div env (is_num ha h1) (is_num hb h2) hy) ht
  | mod_int hn =>
    obtain ⟨rfl, h1⟩ := is_int ha
    obtain ⟨rfl, h2⟩ := is_int hb
    rw [apply_mod_whole env (.int h1) (.int h2), if_neg hn]
    exact ⟨_, rfl, .int (tmod_in32 _ h1)⟩
  | mod_long h1 h2 hl hn =>
    rw [apply_mod_whole env (is_whole ha h1) (is_whole hb h2), if_neg hn, is_isLong ha, is_isLong hb, if_pos hl]
    refine ⟨_, rfl, .long (tmod_in64 _ ?_)⟩
    have := is_whole ha h1
    cases this with
    | int h => unfold InInt32 at h; unfold InInt64; omega
    | long h => exact h
  | @exp m n h32 =>
    obtain ⟨rfl, h1⟩ := is_int ha
    obtain ⟨rfl, h2⟩ := is_int hb
    obtain ⟨k, e, h3, h4⟩ := hp rfl m n h1 h2 (by omega) (by
      rw [Int.toNat_natCast]
      unfold InInt32 at h32
      rw [abs_le]; constructor <;> norm_num <;> omega)
    rw [Int.toNat_natCast] at h4
    rw [apply_exp_whole env (.int h1) (.int h2), h3, castDouble_whole (n := m ^ n) (by rw [h4]; push_cast; rfl) h32]
    exact ⟨_, rfl, .int h32⟩
  | concat hn =>
    obtain ⟨rfl, h1⟩ := is_text ha
    obtain ⟨rfl, h2⟩ := is_text hb
    rw [apply_text env (.inl (.str h1)) (.inl (.str h2)) (.inl (.str h1))]
    exact ⟨_, rfl, .text hn⟩

theorem negates_sound {a t : Thing} (h : Negates a t) {v : Value} (ha : Is v a) :
    ∃ r, Arith.negate v = .ok r ∧ Is r t := by
  cases h with
  | int h =>
    obtain ⟨rfl, h1⟩ := is_int ha
    rw [negate_num (.int h1)]
    exact ⟨.int (wrap32 (-_)), rfl, wrapped32_eq h ▸ .int h.1⟩
  | long h =>
    obtain ⟨rfl, h1⟩ := is_long ha
    rw [negate_num (.long h1)]
    exact ⟨.long (wrap64 (-_)), rfl, wrapped64_eq h ▸ .long h.1⟩
  | big x =>
    cases ha with
    | big d =>
      rw [negate_num (.dec d), ← decVal_neg]
      exact ⟨_, rfl, .big _⟩

/-! ## Comparisons -/

theorem fits_accepts {v : Value} {t : Thing} (h : Is v t) {x : ℚ} (hf : t.Fits x) : Accepts v x := by
  cases h with
  | date h => cases h <;> trivial
  | datetime h => cases h <;> trivial
  | _ => first | exact hf | trivial

theorem compares_sound {o : CmpOp} {a b : Thing} {x : Bool} (h : Compares o a b x) {v w : Value} (ha : Is v a)
    (hb : Is w b) : Cond.compare o v w = .ok x := by
  cases h with
  | numbers h1 h2 => exact compare_num o (is_num ha h1) (is_num hb h2)
  | texts s t =>
    obtain ⟨rfl, h1⟩ := is_text ha
    obtain ⟨rfl, h2⟩ := is_text hb
    exact compare_str o (.inl h1)
  | same x y =>
    rw [is_truth ha, is_truth hb]; cases x <;> cases y <;> rfl
  | differ x y =>
    rw [is_truth ha, is_truth hb]; cases x <;> cases y <;> rfl
  | dates x y => exact compare_date o (is_date ha) (is_date hb)
  | datetimes x y => exact compare_datetime o (is_datetime ha) (is_datetime hb)
  | versions hx =>
    cases ha with
    | version h1 =>
      cases hb with
      | version h2 =>
        obtain ⟨b, h3, h4⟩ := compare_version o h1 h2
        rw [h3]; congr 1
        rw [Bool.eq_iff_iff, h4, hx]
  | text_number ho ho' hn hy hf =>
    obtain ⟨rfl, _⟩ := is_text ha
    exact compare_numtext ho ho' hn (is_num hb hy) (fits_accepts hb hf)
  | @number_text _ a t x y ho ho' hx hn hf =>
    obtain ⟨rfl, _⟩ := is_text hb
    have hm : IsOrder (mirror o) := by cases o <;> first | decide | exact absurd rfl ho | exact absurd rfl ho'
    rw [compare_mirror ⟨ho, ho'⟩ (is_ne_null ha) (by simp),
      compare_numtext hm.1 hm.2 hn (is_num ha hx) (fits_accepts ha hf)]
    congr 1
    apply decide_eq_decide.mpr
    cases o <;> first | exact absurd rfl ho | exact absurd rfl ho' | rfl

/-! ## Functions -/

theorem are_numbers {ws : List Value} {ts : List Thing} (h : List.Forall₂ Is ws ts) {xs : List ℚ}
    (hx : AreNumbers ts xs) : Numbers ws xs := by
  unfold AreNumbers at hx
  induction h generalizing xs with
  | nil =>
    cases xs with
    | nil => exact .nil
    | cons x xs => simp at hx
  | cons h _ ih =>
    cases xs with
    | nil => simp at hx
    | cons x xs =>
      simp only [List.map_cons, List.cons.injEq] at hx
      exact .cons (is_num h hx.1) (ih hx.2)

theorem are_whole {ws : List Value} {ts : List Thing} (h : List.Forall₂ Is ws ts) {ns : List ℤ}
    (hx : AreWhole ts ns) : Wholes ws ns := by
  unfold AreWhole at hx
  induction h generalizing ns with
  | nil =>
    cases ns with
    | nil => exact .nil
    | cons x xs => simp at hx
  | cons h _ ih =>
    cases ns with
    | nil => simp at hx
    | cons x xs =>
      simp only [List.map_cons, List.cons.injEq] at hx
      exact .cons (is_whole h hx.1) (ih hx.2)

theorem has_decimal {ws : List Value} {ts : List Thing} (h : List.Forall₂ Is ws ts)
    (hd : ts.any Thing.isDecimal = true) : HasDecimal ws := by
  rw [List.any_eq_true] at hd
  obtain ⟨t, h1, h2⟩ := hd
  obtain ⟨w, h3, h4⟩ := forall₂_mem_right h h1
  exact ⟨w, h3, by rw [is_isDecimal h4]; exact h2⟩

theorem numeral_notNaN {t : JStr} {x : ℚ} (h : Numeral t x) : NotNaN (.dbl t) ∧ NotNaN (.flt t) := by
  exact ⟨⟨x, h⟩, ⟨x, h⟩⟩

theorem is_notNaN {v : Value} {t : Thing} (h : Is v t) : NotNaN v := by
  cases h with
  | date h => cases h <;> trivial
  | datetime h => cases h <;> trivial
  | double h => exact (numeral_notNaN h).1
  | float h => exact (numeral_notNaN h).2
  | _ => trivial

theorem applies_sound {env : Env} {f : FuncType} {ts : List Thing} {t : Thing} (h : Applies env.today f ts t)
    {ws : List Value} (hi : List.Forall₂ Is ws ts) : ∃ r, callFn env f (typed ws) = .ok r ∧ Is r t := by
  have hlen := hi.length_eq
  cases h with
  | min h1 h2 h3 h4 h5 =>
    rw [callFn_numbers env rfl (are_numbers hi h1) (by omega)]
    obtain ⟨y, h6, h7⟩ := minFn_decimal (are_numbers hi h1) (has_decimal hi h3)
    rw [least_unique h4 h6 (.refl _)] at h5
    exact returns_is h7 h5
  | max h1 h2 h3 h4 h5 =>
    rw [callFn_numbers env rfl (are_numbers hi h1) (by omega)]
    obtain ⟨y, h6, h7⟩ := maxFn_decimal (are_numbers hi h1) (has_decimal hi h3)
    rw [greatest_unique h4 h6 (.refl _)] at h5
    exact returns_is h7 h5
  | sum h1 h2 h3 h5 =>
    rw [callFn_numbers env rfl (are_numbers hi h1) (by omega)]
    refine returns_is ?_ h5
    obtain ⟨ds, h1', rfl⟩ := map_decs (are_numbers hi h1)
    show Returns (sumFn (typed ws)) _
    unfold sumFn
    rw [if_pos ((anyType_decimal (are_numbers hi h1)).mpr (has_decimal hi h3)), h1', ok_bind, ← decSum_val]
    exact castDecimal_returns _
  | avg hf h1 h2 h3 h5 =>
    have hl : f.isList = true := by rcases hf with rfl | rfl <;> rfl
    rw [callFn_numbers env hl (are_numbers hi h1) (by omega)]
    rcases hf with rfl | rfl <;> exact returns_is (avgFn_decimal (are_numbers hi h1) (has_decimal hi h3)) h5
  | min_whole h1 h2 h4 h5 =>
    rw [callFn_numbers env rfl (wholes_numbers (are_whole hi h1)) (by omega)]
    obtain ⟨y, h6, h7⟩ := minFn_whole (are_whole hi h1) (wholes_ne (are_whole hi h1) (by omega))
    rw [least_unique h4 h6 (.refl _)] at h5
    exact ⟨_, h7, boxed_is h5⟩
  | max_whole h1 h2 h4 h5 =>
    rw [callFn_numbers env rfl (wholes_numbers (are_whole hi h1)) (by omega)]
    obtain ⟨y, h6, h7⟩ := maxFn_whole (are_whole hi h1) (wholes_ne (are_whole hi h1) (by omega))
    rw [greatest_unique h4 h6 (.refl _)] at h5
    exact ⟨_, h7, boxed_is h5⟩
  | sum_whole h1 h2 h5 =>
    rw [callFn_numbers env rfl (wholes_numbers (are_whole hi h1)) (by omega)]
    refine ⟨_, ?_, boxed_is h5⟩
    show sumFn (typed ws) = _
    unfold sumFn
    rw [if_neg (by rw [wholes_anyType (are_whole hi h1)]; simp), map_longs (are_whole hi h1), ok_bind, longSum_eq,
      wrap64_of_in (boxed_in h5)]
    rfl
  | avg_whole hf h1 h2 h3 h4 h5 =>
    have hl : f.isList = true := by rcases hf with rfl | rfl <;> rfl
    rw [callFn_numbers env hl (wholes_numbers (are_whole hi h1)) (by omega)]
    have := (avgFn_whole (are_whole hi h1) (wholes_ne (are_whole hi h1) (by omega)) h3).1 ⟨_, h4⟩
    rcases hf with rfl | rfl <;> exact returns_is this h5
  | @median_odd ts xs ys k y t h1 h2 hp hs hk hy ht =>
    rw [callFn_numbers env rfl (are_numbers hi h1) (by omega)]
    exact returns_is (medianFn_odd (are_numbers hi h1) hp hs (by omega)
      (by rw [show xs.length / 2 = k by omega]; exact hy)) ht
  | @median_even ts xs ys k y z t h1 h2 hp hs hk hy hz ht =>
    rw [callFn_numbers env rfl (are_numbers hi h1) (by omega)]
    exact returns_is (medianFn_even (are_numbers hi h1) hp hs (by omega)
      (by rw [show xs.length / 2 - 1 = k by omega]; exact hy)
      (by rw [show xs.length / 2 = k + 1 by omega]; exact hz)) ht
  | int h1 h2 =>
    cases hi with
    | cons h hnil =>
      cases hnil
      exact ⟨_, callInt_num env (is_num h h1) h2, .int h2⟩
  | @len_text s hs =>
    cases hi with
    | cons h hnil =>
      cases hnil
      obtain ⟨rfl, h1⟩ := is_text h
      rw [callFn_one env rfl (show FuncType.len.allows _ = true from rfl)
        (notNaN_valid (v := .str s) (by simp) trivial)]
      exact ⟨.int (utf16 s).length, rfl, .int (by unfold InInt32; omega)⟩
  | len h2 h3 =>
    rw [← hlen] at h2 h3 ⊢
    have hv : ∀ w ∈ ws, w ≠ .null ∧ NotNaN w := fun w hw => by
      obtain ⟨t, _, ht⟩ := forall₂_mem_left hi hw
      exact ⟨is_ne_null ht, is_notNaN ht⟩
    exact ⟨_, callLen_list env h2 hv, .int (by unfold InInt32; omega)⟩
  | days_past h1 h2 h3 h4 =>
    cases hi with
    | cons h hnil =>
      cases hnil
      rw [callDays env (is_date h), h3, (epochDay_daysAfter _ h1).2, add_sub_cancel_left]
      exact ⟨_, rfl, .long h4⟩
  | days_future h1 h2 h3 h4 =>
    cases hi with
    | cons h hnil =>
      cases hnil
      rw [callDays env (is_date h), h3, (epochDay_daysAfter _ h2).2, sub_add_cancel_left]
      exact ⟨_, rfl, .long (by unfold InInt64 at *; omega)⟩

/-! ## Expressions -/

theorem is_plain {v : Value} {t : Thing} (h : Is v t) : elements v = [v] := by
  cases h with
  | date h => cases h <;> rfl
  | datetime h => cases h <;> rfl
  | _ => rfl

mutual
theorem computes_sound {env : Env} (hp : ExactPow env) {d : Data} {e : Arith} {t : Thing}
    (h : Computes env.today d e t) : ∃ v, e.value env d = .ok v ∧ Is v t := by
  cases h with
  | field hn hr hi => exact ⟨_, by rw [Arith.value, fieldValue_reaches hn hr], hi⟩
  | lit hi => exact ⟨_, by rw [Arith.value], hi⟩
  | group h => rw [Arith.value]; exact computes_sound hp h
  | op hl hr ho =>
    obtain ⟨a, h1, h2⟩ := computes_sound hp hl
    obtain ⟨b, h3, h4⟩ := computes_sound hp hr
    rw [Arith.value, h1, ok_bind, h3, ok_bind]
    exact operates_sound (fun _ => hp) ho h2 h4
  | neg he hn =>
    obtain ⟨a, h1, h2⟩ := computes_sound hp he
    rw [Arith.value, h1, ok_bind]
    exact negates_sound hn h2
  | call hc ha =>
    obtain ⟨vs, h1, h2⟩ := collects_sound hp hc
    rw [Arith.value, h1, ok_bind, flattenItems_elements]
    exact applies_sound ha h2
theorem collects_sound {env : Env} (hp : ExactPow env) {d : Data} {es : List Arith} {ts : List Thing}
    (h : Collects env.today d es ts) : ∃ vs, Arith.values env d es = .ok vs ∧ List.Forall₂ Is (vs.flatMap elements) ts := by
  cases h with
  | nil => exact ⟨[], rfl, .nil⟩
  | one he hes =>
    obtain ⟨v, h1, h2⟩ := computes_sound hp he
    obtain ⟨vs, h3, h4⟩ := collects_sound hp hes
    refine ⟨v :: vs, by rw [Arith.values, h1, ok_bind, h3]; rfl, ?_⟩
    rw [List.flatMap_cons, is_plain h2]
    exact .cons h2 h4
  | list hn hr hi hes =>
    obtain ⟨vs, h3, h4⟩ := collects_sound hp hes
    refine ⟨.list _ :: vs, by rw [Arith.values, Arith.value, fieldValue_reaches hn hr, ok_bind, h3]; rfl, ?_⟩
    rw [List.flatMap_cons]
    exact List.rel_append hi h4
end

/-! ## Conditions -/

theorem numberLike_digits {s : JStr} (h : IsDigits s) : NumberLike s := by
  obtain ⟨c, cs, rfl, hc⟩ := digits_head h
  exact ⟨c, cs, rfl, .inl hc⟩

theorem numeral_ne_null {s : JStr} {x : ℚ} (h : Numeral s x) : s ≠ j!"null" := by
  rintro rfl
  obtain ⟨d, h, _⟩ := Numeral.parse h
  cases h

theorem numberLike_dateText (x : Date) : NumberLike (dateText x) := by
  unfold dateText
  simp only [List.append_assoc]
  refine numberLike_append ?_ _
  rw [pad4]
  exact ⟨_, _, rfl, .inl (digitChar_digit _)⟩

theorem is_text_null {v : Value} {t : Thing} (h : Is v t) : v.text = j!"null" ↔ t = .text j!"null" := by
  have no : ∀ {s : JStr}, NumberLike s → s ≠ j!"null" := by
    rintro s ⟨c, r, rfl, hc⟩ e
    simp only [List.cons.injEq] at e
    rw [e.1] at hc
    revert hc; decide
  cases h with
  | text h => exact ⟨fun e => by rw [← e]; rfl, fun e => by cases e; rfl⟩
  | int h => exact ⟨fun e => absurd e (no (numberLike_intStr _)), fun e => by cases e⟩
  | long h => exact ⟨fun e => absurd e (no (numberLike_intStr _)), fun e => by cases e⟩
  | big h => exact ⟨fun e => absurd e (no (numberLike_dec _)), fun e => by cases e⟩
  | double h => exact ⟨fun e => absurd e (numeral_ne_null h), fun e => by cases e⟩
  | float h => exact ⟨fun e => absurd e (numeral_ne_null h), fun e => by cases e⟩
  | truth b => exact ⟨fun e => absurd e (by cases b <;> decide), fun e => by cases e⟩
  | date h =>
    refine ⟨fun e => absurd e (no ?_), fun e => by cases e⟩
    cases h with
    | obj => exact numberLike_date _
    | text h => exact numberLike_dateText _
  | datetime h =>
    refine ⟨fun e => absurd e (no ?_), fun e => by cases e⟩
    cases h with
    | obj => exact numberLike_datetime _
    | text h =>
      show NumberLike (dateTimeText _)
      unfold dateTimeText
      simp only [List.append_assoc]
      exact numberLike_append (numberLike_dateText _) _
  | version h =>
    refine ⟨fun e => absurd e (no ?_), fun e => by cases e⟩
    obtain ⟨p, ps, h1, _, rfl, _⟩ := h
    exact numberLike_append (numberLike_digits h1) _

theorem any_equal {v : Value} {a : Thing} (ha : Is v a) {ws : List Value} {bs : List Thing} {xs : List Bool}
    (hi : List.Forall₂ Is ws bs) (hc : List.Forall₂ (Compares .eq a) bs xs) :
    anyM' (fun w => Cond.compare .eq v w) ws = .ok (xs.any id) := by
  induction hi generalizing xs with
  | nil => cases hc; rfl
  | cons h _ ih =>
    cases hc with
    | @cons _ x _ xs hx hxs =>
      rw [anyM', compares_sound hx ha h, ok_bind, List.any_cons]
      cases x
      · exact ih hxs
      · rfl

theorem texts_of {ws : List Value} {ss : List JStr} (h : List.Forall₂ Is ws (ss.map .text)) :
    ws = ss.map .str ∧ ∀ s ∈ ss, Ordinary s := by
  induction ss generalizing ws with
  | nil => cases h; simp
  | cons s ss ih =>
    cases h with
    | cons h1 h2 =>
      obtain ⟨rfl, h3⟩ := is_text h1
      obtain ⟨rfl, h4⟩ := ih h2
      simpa [h3] using h4

theorem intStr_inj {m n : ℤ} (h : intStr m = intStr n) : m = n := by
  have := Dec.parse_intStr m
  rw [h, Dec.parse_intStr] at this
  simpa using this.symm

theorem whole_texts {ws : List Value} {ms : List ℤ} (h : Wholes ws ms) : ws.map Value.text = ms.map intStr := by
  induction h with
  | nil => rfl
  | cons h _ ih => rw [List.map_cons, List.map_cons, ih]; cases h <;> rfl

theorem ints_of {ws : List Value} {ns : List ℤ} (h : List.Forall₂ Is ws (ns.map .int)) : ws = ns.map .int := by
  induction ns generalizing ws with
  | nil => cases h; rfl
  | cons n ns ih =>
    cases h with
    | cons h1 h2 => cases h1; rw [ih h2]; rfl

theorem whole_ne_null {ws : List Value} {ms : List ℤ} (h : Wholes ws ms) : ∀ w ∈ ws, w ≠ .null := by
  induction h with
  | nil => simp
  | cons h _ ih =>
    intro w hw
    rcases List.mem_cons.mp hw with rfl | hw
    · cases h <;> simp
    · exact ih w hw

theorem text_member {ws : List Value} {ms : List ℤ} (h : Wholes ws ms) (n : ℤ) :
    (∃ x ∈ ws, x.text = (Value.int n).text) ↔ n ∈ ms := by
  have : (∃ x ∈ ws, x.text = (Value.int n).text) ↔ intStr n ∈ ws.map Value.text := by
    simp [Value.text]
  rw [this, whole_texts h, List.mem_map]
  exact ⟨fun ⟨m, h1, h2⟩ => intStr_inj h2 ▸ h1, fun h => ⟨n, h, rfl⟩⟩

theorem holds_sound {env : Env} (hp : ExactPow env) {d : Data} {df : Option JStr} {c : Cond} {b : Bool}
    (h : Holds env.today d df c b) (hv : c.Valid) : c.meaning env d df = .ok b := by
  induction h with
  | cmp hl hr hc =>
    obtain ⟨v, h1, h2⟩ := computes_sound hp hl
    obtain ⟨w, h3, h4⟩ := computes_sound hp hr
    rw [Cond.meaning, h1, ok_bind, rightValue_ok h3, ok_bind]
    exact compares_sound hc h2 h4
  | cmpD hdf hl hr hc =>
    obtain ⟨v, h1, h2⟩ := computes_sound hp hl
    obtain ⟨w, h3, h4⟩ := computes_sound hp hr
    subst hdf
    rw [Arith.value] at h1
    rw [Cond.meaning, Cond.defaultValue, h1, ok_bind, rightValue_ok h3, ok_bind]
    exact compares_sound hc h2 h4
  | @absent f eq ks hn hm =>
    rw [Cond.meaning, (lookup_none hn d).mpr hm, ok_bind]
    cases eq <;> krfl
  | @present f eq t hf ht =>
    cases hf with
    | field hn hr hi =>
      rw [Cond.meaning, (lookup_some hn d _).mpr hr, ok_bind,
        nullCheck_some (is_ne_null hi) (notNaN_valid (is_ne_null hi) (is_notNaN hi)),
        decide_eq_false (fun e => ht ((is_text_null hi).mp e))]
      cases eq <;> rfl
  | @null_text f eq hf =>
    cases hf with
    | field hn hr hi =>
      rw [Cond.meaning, (lookup_some hn d _).mpr hr, ok_bind,
        nullCheck_some (is_ne_null hi) (notNaN_valid (is_ne_null hi) (is_notNaN hi)),
        decide_eq_true ((is_text_null hi).mpr rfl)]
      cases eq <;> rfl
  | range hf hx =>
    obtain ⟨v, h1, h2⟩ := computes_sound hp hf
    obtain ⟨_, vlo, vhi, nlo, nhi⟩ := hv
    rw [Arith.value] at h1
    rw [Cond.meaning, h1, ok_bind, compare_num .ge (is_num h2 hx) (numLit vlo nlo), ok_bind,
      compare_num .le (is_num h2 hx) (numLit vhi nhi), ok_bind]
    show Except.ok _ = Except.ok _
    congr 1
    simp only [Rel, ge_iff_le, Bool.decide_and]
  | @isIn f negated items a bs xs hf hc hne hx =>
    obtain ⟨v, h1, h2⟩ := computes_sound hp hf
    obtain ⟨vs, h3, h4⟩ := collects_sound hp hc
    rw [Arith.value] at h1
    rw [Cond.meaning, h1, ok_bind, h3, ok_bind, member_eq (fun e => by rw [e] at h4; cases h4; exact hne rfl),
      any_equal h2 h4 hx, ok_bind]
    show Except.ok _ = Except.ok _
    cases negated <;> cases xs.any id <;> rfl
  | contains_all hn hr hi hc =>
    obtain ⟨vs, h3, h4⟩ := collects_sound hp hc
    obtain ⟨rfl, h5⟩ := texts_of hi
    obtain ⟨h6, h7⟩ := texts_of h4
    rw [Cond.meaning, fieldValue_reaches hn hr, ok_bind, h3, ok_bind, containsTest_all]
    · rw [h6]; simp [Value.text]
    · rw [h6]
      simp only [List.mem_map]
      rintro _ ⟨s, hs, rfl⟩ _ ⟨s', hs', rfl⟩
      rw [ordinary_type (h7 s hs), ordinary_type (h7 s' hs')]
    · simp
    · rw [h6]; simp
  | contains_any hn hr hi hc =>
    obtain ⟨vs, h3, h4⟩ := collects_sound hp hc
    obtain ⟨rfl, h5⟩ := texts_of hi
    obtain ⟨h6, h7⟩ := texts_of h4
    rw [Cond.meaning, fieldValue_reaches hn hr, ok_bind, h3, ok_bind, containsTest_any]
    · rw [h6]; simp [Value.text]
    · rw [h6]
      simp only [List.mem_map]
      rintro _ ⟨s, hs, rfl⟩ _ ⟨s', hs', rfl⟩
      rw [ordinary_type (h7 s hs), ordinary_type (h7 s' hs')]
    · simp
    · rw [h6]; simp
  | @whole_all f ks ws items as ms ns hn hr hi hm hc =>
    obtain ⟨vs, h3, h4⟩ := collects_sound hp hc
    have hw := are_whole hi hm
    have h6 := ints_of h4
    rw [Cond.meaning, fieldValue_reaches hn hr, ok_bind, h3, ok_bind, containsTest_all]
    · rw [h6]
      congr 1
      apply decide_eq_decide.mpr
      simp only [List.mem_map, forall_exists_index, and_imp, forall_apply_eq_imp_iff₂]
      exact forall_congr' fun n => forall_congr' fun _ => text_member hw n
    · rw [h6]
      simp only [List.mem_map]
      rintro _ ⟨s, hs, rfl⟩ _ ⟨s', hs', rfl⟩
      rfl
    · exact whole_ne_null hw
    · rw [h6]; simp
  | @whole_any f ks ws items as ms ns hn hr hi hm hc =>
    obtain ⟨vs, h3, h4⟩ := collects_sound hp hc
    have hw := are_whole hi hm
    have h6 := ints_of h4
    rw [Cond.meaning, fieldValue_reaches hn hr, ok_bind, h3, ok_bind, containsTest_any]
    · rw [h6]
      congr 1
      apply decide_eq_decide.mpr
      simp only [List.mem_map]
      constructor
      · rintro ⟨_, ⟨n, h1, rfl⟩, h2⟩
        exact ⟨n, h1, (text_member hw n).mp h2⟩
      · rintro ⟨n, h1, h2⟩
        exact ⟨_, ⟨n, h1, rfl⟩, (text_member hw n).mpr h2⟩
    · rw [h6]
      simp only [List.mem_map]
      rintro _ ⟨s, hs, rfl⟩ _ ⟨s', hs', rfl⟩
      rfl
    · exact whole_ne_null hw
    · rw [h6]; simp
  | notField hf =>
    obtain ⟨v, h1, h2⟩ := computes_sound hp hf
    rw [Arith.value] at h1
    rw [Cond.meaning, h1, is_truth h2]; rfl
  | not _ ih => rw [Cond.meaning, ih hv]; rfl
  | group _ ih => rw [Cond.meaning, ih hv]
  | and _ _ ih1 ih2 => rw [Cond.meaning, ih1 hv.1, ok_bind, ih2 hv.2]; rfl
  | and_false _ ih => rw [Cond.meaning, ih hv.1]; rfl
  | or _ _ ih1 ih2 => rw [Cond.meaning, ih1 hv.1, ok_bind, ih2 hv.2]; rfl
  | or_true _ ih => rw [Cond.meaning, ih hv.1]; rfl

end BoolParser
