import Verif.Lemmas.Kinds
/-!
# Numeric texts
-/

namespace BoolParser
open Spec

/-! ### Integral decimals -/

theorem decVal_nonpos {d : Dec} (h : d.scale ≤ 0) : decVal d = ((d.unscaled * Dec.p10 (-d.scale).toNat : Int) : ℚ) := by
  unfold decVal
  push_cast
  rw [p10_cast, Int.toNat_of_nonneg (by omega)]

theorem decVal_pos {d : Dec} (h : 0 ≤ d.scale) : decVal d * ((Dec.p10 d.scale.toNat : Int) : ℚ) = d.unscaled := by
  unfold decVal
  rw [p10_cast, Int.toNat_of_nonneg h, mul_assoc, ← zpow_add₀ (by norm_num)]
  simp

theorem trunc_integral {d : Dec} (h : d.isIntegral = true) : ((d.trunc : Int) : ℚ) = decVal d := by
  unfold Dec.isIntegral at h
  unfold Dec.trunc
  by_cases hs : d.scale ≤ 0
  · rw [if_pos hs, decVal_nonpos hs]
  · rw [if_neg hs]
    have hm : d.unscaled.tmod (Dec.p10 d.scale.toNat) = 0 := by
      simpa [hs] using h
    have hp := Dec.p10_pos d.scale.toNat
    have e : d.unscaled.tdiv (Dec.p10 d.scale.toNat) * Dec.p10 d.scale.toNat = d.unscaled :=
      Int.tdiv_mul_cancel (Int.dvd_of_tmod_eq_zero hm)
    have h1 := decVal_pos (d := d) (by omega)
    have hne : ((Dec.p10 d.scale.toNat : Int) : ℚ) ≠ 0 := by exact_mod_cast hp.ne'
    apply mul_right_cancel₀ hne
    rw [h1]
    exact_mod_cast e

theorem isIntegral_iff (d : Dec) : d.isIntegral = true ↔ ∃ n : ℤ, decVal d = n := by
  constructor
  · intro h; exact ⟨d.trunc, (trunc_integral h).symm⟩
  · rintro ⟨n, hn⟩
    unfold Dec.isIntegral
    by_cases hs : d.scale ≤ 0
    · simp [hs]
    · have h1 := decVal_pos (d := d) (by omega)
      rw [hn] at h1
      have h2 : n * Dec.p10 d.scale.toNat = d.unscaled := by exact_mod_cast h1
      simp only [hs, decide_false, Bool.false_or, decide_eq_true_eq]
      exact Int.tmod_eq_zero_of_dvd ⟨n, by rw [← h2]; ring⟩

theorem toInt32?_some {d : Dec} {n : ℤ} (h : decVal d = n) (hn : InInt32 n) : d.toInt32? = some n := by
  have hi := (isIntegral_iff d).mpr ⟨n, h⟩
  have ht : d.trunc = n := by
    have := trunc_integral hi; rw [h] at this; exact_mod_cast this
  unfold Dec.toInt32?
  rw [if_pos hi, ht, if_pos hn]

theorem toInt64?_some {d : Dec} {n : ℤ} (h : decVal d = n) (hn : InInt64 n) : d.toInt64? = some n := by
  have hi := (isIntegral_iff d).mpr ⟨n, h⟩
  have ht : d.trunc = n := by
    have := trunc_integral hi; rw [h] at this; exact_mod_cast this
  unfold Dec.toInt64?
  rw [if_pos hi, ht, if_pos hn]

theorem toInt32?_none {d : Dec} (h : ¬ ∃ n : ℤ, decVal d = n ∧ InInt32 n) : d.toInt32? = none := by
  unfold Dec.toInt32?
  by_cases hi : d.isIntegral = true
  · rw [if_pos hi, if_neg]
    intro hn; exact h ⟨d.trunc, (trunc_integral hi).symm, hn⟩
  · rw [if_neg hi]

theorem toInt64?_none {d : Dec} (h : ¬ ∃ n : ℤ, decVal d = n ∧ InInt64 n) : d.toInt64? = none := by
  unfold Dec.toInt64?
  by_cases hi : d.isIntegral = true
  · rw [if_pos hi, if_neg]
    intro hn; exact h ⟨d.trunc, (trunc_integral hi).symm, hn⟩
  · rw [if_neg hi]

/-! ### A numeric text is not a date -/

/-- Digits followed by a dash are no number. -/
theorem parseUnsigned_dash (neg : Bool) {y r : JStr} (hy : y.all isDigit = true) :
    Dec.parseUnsigned neg (y ++ '-' :: r) = none := by
  have h1 : (y ++ '-' :: r).takeWhile isDigit = y := takeWhile_append hy rfl
  have h2 : (y ++ '-' :: r).dropWhile isDigit = '-' :: r := dropWhile_append hy rfl
  unfold Dec.parseUnsigned
  rw [h1, h2]
  by_cases hn : y = [] <;> simp [hn]

/-- A text with digits and a dash in front, possibly after a sign. -/
def Dashed (s : JStr) : Prop :=
  ∃ y r : JStr, IsDigits y ∧ (s = y ++ '-' :: r ∨ s = '+' :: (y ++ '-' :: r) ∨ s = '-' :: (y ++ '-' :: r))

theorem asciiDigits_dashed {s : JStr} (h : Dashed s) : Dashed (asciiDigits s) := by
  obtain ⟨y, r, hy, e⟩ := h
  have key : asciiDigits (y ++ '-' :: r) = y ++ '-' :: asciiDigits r := by
    rw [asciiDigits_append, asciiDigits_digits hy.2, asciiDigits_cons (by decide)]
  refine ⟨y, asciiDigits r, hy, ?_⟩
  rcases e with rfl | rfl | rfl
  · exact .inl key
  · exact .inr (.inl (by rw [asciiDigits_cons (by decide), key]))
  · exact .inr (.inr (by rw [asciiDigits_cons (by decide), key]))

theorem dashed_not_number {s : JStr} (h : Dashed s) : Dec.parse s = none := by
  unfold Dec.parse
  obtain ⟨y, r, hy, e⟩ := asciiDigits_dashed h
  generalize asciiDigits s = s at e
  rcases e with rfl | rfl | rfl
  · obtain ⟨c, cs, hcs, hc⟩ := digits_head hy
    have h1 : c ≠ '-' := digit_ne hc rfl
    have h2 : c ≠ '+' := digit_ne hc rfl
    have := parseUnsigned_dash false (r := r) hy.2
    rw [hcs] at this ⊢
    rw [List.cons_append] at this ⊢
    unfold Dec.parseAscii
    split
    · rename_i e; injection e with e _; exact absurd e h1
    · rename_i e; injection e with e _; exact absurd e h2
    · exact this
  · exact parseUnsigned_dash false hy.2
  · exact parseUnsigned_dash true hy.2

theorem dateLike_dashed {s : JStr} (h : DateLike s) : Dashed s := by
  obtain ⟨y, m, d, r, hy, _, _, e⟩ := h
  rcases e with rfl | rfl
  · exact ⟨y, _, hy, .inl rfl⟩
  · exact ⟨y, _, hy, .inr (.inl rfl)⟩

theorem numeral_not_date {s : JStr} {x : ℚ} (h : Numeral s x) : ¬ DateLike s := by
  intro hd
  obtain ⟨e, he, _⟩ := Numeral.parse h
  rw [dashed_not_number (dateLike_dashed hd)] at he
  cases he

/-! ### Numeric text against a number -/

theorem accepts_coerce {s : JStr} {x : ℚ} (h : Numeral s x) {b : Value} {y : ℚ} (hb : Num b y) (hacc : Accepts b x) :
    isValid (getDataType b) (.str s) = .ok true ∧
      comparePrim (getDataType b) (.str s) b = .ok (_root_.cmp x y) := by
  obtain ⟨e, he, hx⟩ := Numeral.parse h
  obtain ⟨eb, heb, hy⟩ := num_asDec hb
  have hdec : asDec (.str s) = .ok (some e) := by simp [asDec, Value.text, he]
  have dcase : getDataType b = .decimal → isValid (getDataType b) (.str s) = .ok true ∧
      comparePrim (getDataType b) (.str s) b = .ok (_root_.cmp x y) := by
    intro ht
    rw [ht]
    refine ⟨by simp only [isValid, hdec]; rfl, ?_⟩
    unfold comparePrim both
    rw [hdec, heb]
    show Except.ok (Dec.cmp e eb) = _
    rw [Dec.cmp_eq, hx, hy]
  cases hb with
  | @int m hm =>
    obtain ⟨n, rfl, hn⟩ := hacc
    have hi : asInt (.str s) = .ok (some n) := by
      simp [asInt, Value.text, he, toInt32?_some hx hn]
    refine ⟨by simp only [getDataType, isValid, hi]; rfl, ?_⟩
    show both asInt compare _ _ = _
    unfold both
    rw [hi]
    show Except.ok (compare n m) = _
    rw [compare_int_cast]
  | @long m hm =>
    obtain ⟨n, rfl, hn⟩ := hacc
    have hi : asLong (.str s) = .ok (some n) := by
      simp [asLong, Value.text, he, toInt64?_some hx hn]
    refine ⟨by simp only [getDataType, isValid, hi]; rfl, ?_⟩
    show both asLong compare _ _ = _
    unfold both
    rw [hi]
    show Except.ok (compare n m) = _
    rw [compare_int_cast]
  | dec d => exact dcase rfl
  | dbl h => exact dcase rfl
  | flt h => exact dcase rfl

theorem num_numeric {b : Value} {y : ℚ} (hb : Num b y) : (getDataType b).numeric = true := by
  cases hb <;> rfl

theorem compare_numtext {o : CmpOp} (ho : o ≠ .eq) (ho' : o ≠ .ne) {s : JStr} {x : ℚ} (h : Numeral s x) {b : Value}
    {y : ℚ} (hb : Num b y) (hacc : Accepts b x) :
    Cond.compare o (.str s) b = .ok (decide (Rel o x y)) := by
  rw [← test_cmp]
  obtain ⟨h1, h2⟩ := accepts_coerce h hb hacc
  have ts := plain_type (numeral_not_date h)
  have hn := num_numeric hb
  have tb : getDataType b ≠ .boolean := by intro e; rw [e] at hn; cases hn
  have hor : orderType .string (getDataType b) = getDataType b := by
    cases ht : getDataType b <;> rw [ht] at hn <;> first | rfl | cases hn
  have hval : validate (.str s) .string b (getDataType b) = .ok () := by
    unfold validate
    rw [hn, h1]; rfl
  rw [compare_ord_sym ho ho' (by simp) (num_ne_null hb), ts, if_neg (by simp [tb]), hval, hor, h2]; rfl

theorem compare_numtext_fails {o : CmpOp} (ho : o ≠ .eq) (ho' : o ≠ .ne) {s : JStr} {x : ℚ} (h : Numeral s x) {b : Value}
    {y : ℚ} (hb : Num b y) (hacc : ¬ Accepts b x) :
    Cond.compare o (.str s) b = .error .invalidDataType := by
  obtain ⟨e, he, hx⟩ := Numeral.parse h
  have ts := plain_type (numeral_not_date h)
  have hn := num_numeric hb
  have tb : getDataType b ≠ .boolean := by intro e; rw [e] at hn; cases hn
  have h1 : isValid (getDataType b) (.str s) = .ok false := by
    cases hb with
    | @int m hm =>
      have : e.toInt32? = none := toInt32?_none (by rintro ⟨n, h1, h2⟩; exact hacc ⟨n, by rw [← hx, h1], h2⟩)
      simp [getDataType, isValid, asInt, Value.text, he, this]
    | @long m hm =>
      have : e.toInt64? = none := toInt64?_none (by rintro ⟨n, h1, h2⟩; exact hacc ⟨n, by rw [← hx, h1], h2⟩)
      simp [getDataType, isValid, asLong, Value.text, he, this]
    | dec d => exact absurd trivial hacc
    | dbl h => exact absurd trivial hacc
    | flt h => exact absurd trivial hacc
  have hval : validate (.str s) .string b (getDataType b) = .error .invalidDataType := by
    unfold validate
    rw [hn, h1]; rfl
  rw [compare_ord_sym ho ho' (by simp) (num_ne_null hb), ts, if_neg (by simp [tb]), hval]; rfl

/-! ### The text of a `BigDecimal` -/

theorem natStr_isDigits (n : Nat) : IsDigits (natStr n) := ⟨natStr_ne_nil n, natStr_digits n⟩

/-- The written sign of an integer. -/
def signOf (u : Int) : Sign := if u < 0 then .minus else .none

theorem sign_text (u : Int) : (signOf u).text = if u < 0 then ['-'] else [] := by
  unfold signOf; split <;> rfl

theorem sign_mul (u : Int) : ((signOf u).factor : Int) * (u.natAbs : Int) = u := by
  unfold signOf; split <;> simp only [Sign.factor] <;> omega

theorem zeros_value (k : Nat) (s : JStr) : natOfDigits 0 (Dec.zeros k ++ s) = natOfDigits 0 s := by
  unfold Dec.zeros
  induction k with
  | zero => rfl
  | succ k ih =>
    rw [List.replicate_succ, List.cons_append, natOfDigits]
    have : digitVal '0' = 0 := by krfl
    rw [this]; exact ih

theorem zeros_digits (k : Nat) : (Dec.zeros k).all isDigit = true := by
  unfold Dec.zeros
  rw [List.all_eq_true]
  intro c hc
  rw [List.mem_replicate] at hc
  rw [hc.2]; rfl

theorem numText_value (u : Int) (w : JStr) (f : Option JStr) (e : Option (Sign × JStr))
    (hw : natOfDigits 0 (w ++ f.getD []) = u.natAbs) (sc : Int)
    (hsc : (NumText.exponent ⟨signOf u, w, f, e⟩) - ((f.getD []).length : Int) = -sc) :
    decVal ⟨u, sc⟩ = NumText.value ⟨signOf u, w, f, e⟩ := by
  unfold decVal NumText.value
  simp only
  rw [hsc, digitsValue_eq, hw]
  have := sign_mul u
  have h2 : ((signOf u).factor : ℚ) * ((u.natAbs : Int) : ℚ) = (u : ℚ) := by
    rw [← Int.cast_mul, this]
  rw [← h2]; rfl

theorem natStrGo_length (f n : Nat) (acc : JStr) (h : n < f) (hn : 0 < n) :
    ∃ k, (natStrGo f n acc).length = acc.length + k + 1 ∧ 10 ^ k ≤ n := by
  induction f generalizing n acc with
  | zero => omega
  | succ f ih =>
    unfold natStrGo
    by_cases h10 : n < 10
    · rw [if_pos h10]; exact ⟨0, by simp, by simp; omega⟩
    · rw [if_neg h10]
      obtain ⟨k, h1, h2⟩ := ih (n / 10) (digitChar (n % 10) :: acc) (by omega) (by omega)
      refine ⟨k + 1, by rw [h1]; simp; omega, ?_⟩
      rw [pow_succ]; omega

theorem natStr_pow_le (n : Nat) (h : 0 < n) : 10 ^ ((natStr n).length - 1) ≤ n := by
  obtain ⟨k, h1, h2⟩ := natStrGo_length (n + 1) n [] (by omega) h
  unfold natStr
  rw [h1]; simpa using h2

theorem toStr_plain {d : Dec} (h : Reasonable d) : PlainNumeral d.toStr (decVal d) := by
  obtain ⟨u, sc⟩ := d
  unfold Reasonable at h
  simp only at h
  unfold Dec.toStr
  simp only
  rw [← sign_text u]
  have hc := natStr_isDigits u.natAbs
  have hv := natOfDigits_natStr u.natAbs
  have hlen : 0 < (natStr u.natAbs).length := List.length_pos_iff.mpr hc.1
  generalize hcoeff : natStr u.natAbs = co at *
  by_cases h0 : sc = 0
  · rw [if_pos h0]
    subst h0
    exact ⟨⟨signOf u, co, none, none⟩, ⟨hc, by simp, by simp⟩, by simp [NumText.text, NumText.fracText, NumText.expText],
      numText_value u co none none (by simpa using hv) 0 (by simp [NumText.exponent])⟩
  · rw [if_neg h0]
    by_cases hp : 0 ≤ sc ∧ -6 ≤ -sc + ((co.length : Int) - 1)
    · rw [if_pos hp]
      by_cases hl : co.length ≤ sc.toNat
      · rw [if_pos hl]
        have hfrac : IsDigits (Dec.zeros (sc.toNat - co.length) ++ co) := by
          refine ⟨by simp [hc.1], ?_⟩
          rw [List.all_append, zeros_digits, hc.2]; rfl
        refine ⟨⟨signOf u, ['0'], some (Dec.zeros (sc.toNat - co.length) ++ co), none⟩, ⟨⟨by simp, rfl⟩, ?_, by simp⟩, ?_, ?_⟩
        · intro f hf; injection hf with hf; rw [← hf]; exact hfrac
        · simp [NumText.text, NumText.fracText, NumText.expText]
        · apply numText_value
          · exact (zeros_value 1 (Dec.zeros (sc.toNat - co.length) ++ co)).trans ((zeros_value _ _).trans hv)
          · simp [NumText.exponent, Dec.zeros]; omega
      · rw [if_neg hl]
        have hall := hc.2
        rw [← List.take_append_drop (co.length - sc.toNat) co, List.all_append, Bool.and_eq_true] at hall
        refine ⟨⟨signOf u, co.take (co.length - sc.toNat), some (co.drop (co.length - sc.toNat)), none⟩,
          ⟨⟨?_, hall.1⟩, ?_, by simp⟩, ?_, ?_⟩
        · intro e
          have := congrArg List.length e
          simp at this; omega
        · intro f hf; injection hf with hf; rw [← hf]
          refine ⟨?_, hall.2⟩
          intro e
          have := congrArg List.length e
          simp at this; omega
        · simp [NumText.text, NumText.fracText, NumText.expText]
        · apply numText_value
          · simpa using hv
          · simp [NumText.exponent]; omega
    · rw [if_neg hp]
      have expo : ∀ adj : Int, adj.natAbs ≤ 999999999 → adj ≠ 0 →
          ∃ e : Sign × JStr, IsDigits e.2 ∧ e.2.length ≤ 9 ∧ e.1.factor * (digitsValue e.2 : Int) = adj ∧
            (if 0 < adj then ['+'] else []) ++ intStr adj = e.1.text ++ e.2 := by
        intro adj hadj hne
        have hlen9 : (natStr adj.natAbs).length ≤ 9 := by
          by_contra hcon
          have : 10 ^ 9 ≤ adj.natAbs := by
            have h1 := natStr_pow_le adj.natAbs (by omega)
            exact le_trans (Nat.pow_le_pow_right (by decide) (by omega)) h1
          omega
        unfold intStr
        by_cases hpos : 0 < adj
        · refine ⟨(.plus, natStr adj.natAbs), natStr_isDigits _, hlen9, ?_, ?_⟩
          · simp only [Sign.factor, digitsValue_eq, natOfDigits_natStr]; omega
          · rw [if_pos hpos, if_neg (by omega)]; rfl
        · refine ⟨(.minus, natStr adj.natAbs), natStr_isDigits _, hlen9, ?_, ?_⟩
          · simp only [Sign.factor, digitsValue_eq, natOfDigits_natStr]; omega
          · rw [if_neg hpos, if_pos (by omega)]; rfl
      have mk : ∀ (w : JStr) (f : Option JStr), IsDigits w → (∀ g, f = some g → IsDigits g) → w ++ f.getD [] = co →
          w.length = 1 → PlainNumeral (if -sc + ((co.length : Int) - 1) = 0 then (signOf u).text ++ (w ++ NumText.fracText f)
            else (signOf u).text ++ (w ++ NumText.fracText f) ++ ['E'] ++
              (if 0 < -sc + ((co.length : Int) - 1) then ['+'] else []) ++ intStr (-sc + ((co.length : Int) - 1)))
            (decVal ⟨u, sc⟩) := by
        intro w f hw hf hcat hwl
        have hfl : ((f.getD []).length : Int) = co.length - 1 := by
          rw [← hcat]; simp [hwl]
        by_cases ha : -sc + ((co.length : Int) - 1) = 0
        · rw [if_pos ha]
          refine ⟨⟨signOf u, w, f, none⟩, ⟨hw, hf, by simp⟩, by simp [NumText.text, NumText.expText], ?_⟩
          apply numText_value
          · rw [hcat]; exact hv
          · simp only [NumText.exponent]; omega
        · rw [if_neg ha]
          obtain ⟨e, he1, he2, he3, he4⟩ := expo (-sc + ((co.length : Int) - 1)) (by omega) ha
          refine ⟨⟨signOf u, w, f, some e⟩, ⟨hw, hf, ?_⟩, ?_, ?_⟩
          · intro e' h'; injection h' with h'; subst h'
            refine ⟨he1, he2, ?_⟩
            simp only
            omega
          · simp only [NumText.text, NumText.expText, List.append_assoc]
            rw [he4]; rfl
          · apply numText_value
            · rw [hcat]; exact hv
            · simp only [NumText.exponent]; omega
      cases co with
      | nil => exact absurd rfl hc.1
      | cons c cs =>
        have hc1 : isDigit c = true := by have := hc.2; simp at this; exact this.1
        have hd1 : IsDigits [c] := ⟨by simp, by simp [hc1]⟩
        cases cs with
        | nil =>
          have := mk [c] none hd1 (by simp) rfl rfl
          simpa [NumText.fracText] using this
        | cons c2 cs =>
          have hd2 : IsDigits (c2 :: cs) := ⟨by simp, by have := hc.2; simp at this ⊢; exact this.2⟩
          have := mk [c] (some (c2 :: cs)) hd1 (by intro g hg; injection hg with hg; rw [← hg]; exact hd2) rfl rfl
          simpa [NumText.fracText] using this

theorem toStr_numeral {d : Dec} (h : Reasonable d) : Numeral d.toStr (decVal d) :=
  PlainNumeral.numeral (toStr_plain h)

end BoolParser
