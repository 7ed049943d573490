import Verif.Spec.Texts
import Verif.Lemmas.DateTexts
import Verif.Lemmas.Kinds
import Verif.Lemmas.NumText
import Verif.Lemmas.Fragment
import Mathlib.Tactic.NormNum
import Mathlib.Data.Nat.Prime.Basic
/-!
# Arithmetic operators
-/

namespace BoolParser
open Spec

/-! ### Decimals -/

theorem decVal_add (a b : Dec) : decVal (a.add b) = decVal a + decVal b := by
  have ha := rescaled_val a (le_max_left a.scale b.scale)
  have hb := rescaled_val b (le_max_right a.scale b.scale)
  show (((a.rescaled (max a.scale b.scale) + b.rescaled (max a.scale b.scale) : ℤ) : ℚ))
    * (10 : ℚ) ^ (-(max a.scale b.scale)) = _
  push_cast
  rw [ha, hb, ← add_mul, mul_assoc, ← zpow_add₀ (by norm_num)]
  simp

theorem decVal_sub (a b : Dec) : decVal (a.sub b) = decVal a - decVal b := by
  have ha := rescaled_val a (le_max_left a.scale b.scale)
  have hb := rescaled_val b (le_max_right a.scale b.scale)
  show (((a.rescaled (max a.scale b.scale) - b.rescaled (max a.scale b.scale) : ℤ) : ℚ))
    * (10 : ℚ) ^ (-(max a.scale b.scale)) = _
  push_cast
  rw [ha, hb, ← sub_mul, mul_assoc, ← zpow_add₀ (by norm_num)]
  simp

theorem decVal_mul (a b : Dec) : decVal (a.mul b) = decVal a * decVal b := by
  unfold decVal Dec.mul
  push_cast
  rw [neg_add, zpow_add₀ (by norm_num)]
  ring

theorem decVal_neg (a : Dec) : decVal a.neg = -decVal a := by
  unfold decVal Dec.neg; push_cast; ring

theorem Dec.add_comm' (a b : Dec) : a.add b = b.add a := by
  unfold Dec.add; simp only [max_comm a.scale b.scale]; congr 1; exact Int.add_comm _ _

theorem Dec.mul_comm' (a b : Dec) : a.mul b = b.mul a := by
  unfold Dec.mul; congr 1
  · exact Int.mul_comm _ _
  · exact Int.add_comm _ _

theorem decVal_eq_zero (d : Dec) : decVal d = 0 ↔ d.unscaled = 0 := by
  unfold decVal
  constructor
  · intro h
    rcases mul_eq_zero.mp h with h | h
    · exact_mod_cast h
    · exact absurd h (ne_of_gt (ten_zpow_pos _))
  · intro h; rw [h]; simp

theorem truncate_tdiv (p q : ℤ) (hq : q ≠ 0) : truncate ((p : ℚ) / q) = p.tdiv q := by
  have key : ∀ p q : ℤ, 0 < q → truncate ((p : ℚ) / q) = p.tdiv q := by
    intro p q hq
    have hq' : (0 : ℚ) < q := by exact_mod_cast hq
    have hfl : ∀ k : ℤ, ⌊(k : ℚ) / q⌋ = k / q := by
      intro k
      obtain ⟨j, rfl⟩ := Int.eq_ofNat_of_zero_le hq.le
      exact_mod_cast Rat.floor_intCast_div_natCast k j
    unfold truncate
    by_cases hp : 0 ≤ p
    · rw [if_pos (div_nonneg (by exact_mod_cast hp) hq'.le), hfl p, Int.tdiv_eq_ediv_of_nonneg hp]
    · have hp' : p < 0 := by omega
      have hpq : (p : ℚ) < 0 := by exact_mod_cast hp'
      have : ¬ (0 : ℚ) ≤ (p : ℚ) / q := by rw [not_le]; exact div_neg_of_neg_of_pos hpq hq'
      rw [if_neg this]
      obtain ⟨k, rfl⟩ : ∃ k, p = -k := ⟨-p, by omega⟩
      push_cast
      rw [neg_div, Int.ceil_neg, hfl k, Int.neg_tdiv,
        Int.tdiv_eq_ediv_of_nonneg (by omega)]
  rcases lt_or_gt_of_ne hq with h | h
  · obtain ⟨k, rfl⟩ : ∃ k, q = -k := ⟨-q, by omega⟩
    have := key (-p) k (by omega)
    push_cast at this ⊢
    rw [div_neg, ← neg_div, this, Int.tdiv_neg, Int.neg_tdiv]
  · exact key p q h

theorem divDown_val (a b : Dec) (hb : decVal b ≠ 0) (sc : ℤ) :
    ∃ d, a.divDown b sc = .ok d ∧ d.scale = sc ∧ d.unscaled = truncate (decVal a / decVal b * 10 ^ sc) := by
  have hu : b.unscaled ≠ 0 := fun h => hb ((decVal_eq_zero b).mpr h)
  refine ⟨⟨(Dec.quotParts a b sc).1.tdiv (Dec.quotParts a b sc).2, sc⟩, ?_, rfl, ?_⟩
  · unfold Dec.divDown; rw [if_neg hu]
  · show (Dec.quotParts a b sc).1.tdiv (Dec.quotParts a b sc).2 = _
    have hbu : (b.unscaled : ℚ) ≠ 0 := by exact_mod_cast hu
    unfold Dec.quotParts
    simp only
    split
    · rename_i he
      rw [← truncate_tdiv _ _ hu]
      congr 1
      push_cast
      rw [p10_cast, Int.toNat_of_nonneg he]
      unfold decVal
      rw [zpow_sub₀ (by norm_num), zpow_add₀ (by norm_num), zpow_neg, zpow_neg]
      have h1 := (ten_zpow_pos a.scale).ne'
      have h2 := (ten_zpow_pos b.scale).ne'
      field_simp
    · rename_i he
      have hp := Dec.p10_pos (-(sc + b.scale - a.scale)).toNat
      rw [← truncate_tdiv _ _ (mul_ne_zero hu hp.ne')]
      congr 1
      push_cast
      rw [p10_cast, Int.toNat_of_nonneg (by omega)]
      unfold decVal
      rw [neg_sub, zpow_sub₀ (by norm_num), zpow_add₀ (by norm_num), zpow_neg, zpow_neg]
      have h1 := (ten_zpow_pos a.scale).ne'
      have h2 := (ten_zpow_pos b.scale).ne'
      have h3 := (ten_zpow_pos sc).ne'
      field_simp

theorem castDecimal_returns (d : Dec) : Returns (castDecimal d) (decVal d) := by
  refine ⟨?_, ?_, ?_⟩
  · intro n hn h32
    have hi := (isIntegral_iff d).mpr ⟨n, hn⟩
    have ht : d.trunc = n := by have := trunc_integral hi; rw [hn] at this; exact_mod_cast this
    unfold castDecimal intValueExact
    rw [if_pos hi, if_pos ⟨hi, by rw [ht]; exact h32⟩, ht]; rfl
  · intro n hn h32
    have hi := (isIntegral_iff d).mpr ⟨n, hn⟩
    have ht : d.trunc = n := by have := trunc_integral hi; rw [hn] at this; exact_mod_cast this
    unfold castDecimal intValueExact
    rw [if_pos hi, if_neg (by rw [ht]; exact fun h => h32 h.2)]; rfl
  · intro hne
    have hi : ¬ d.isIntegral = true := fun h => by
      obtain ⟨n, hn⟩ := (isIntegral_iff d).mp h; exact hne n hn
    exact ⟨d, by unfold castDecimal; rw [if_neg hi], rfl⟩

/-! ### Operators on numbers -/

theorem whole_num {a : Value} {n : ℤ} (h : Whole a n) : Num a n := by
  cases h with
  | int h => exact .int h
  | long h => exact .long h

theorem whole_type {a : Value} {n : ℤ} (h : Whole a n) :
    getDataType a = if IsLong a then .long else .integer := by
  cases h <;> rfl

theorem whole_in {a : Value} {n : ℤ} (h : Whole a n) : InInt64 n := by
  cases h with
  | int h => exact h.to64
  | long h => exact h

theorem num_cases {a : Value} {x : ℚ} (h : Num a x) : (∃ n : ℤ, x = n ∧ Whole a n) ∨ IsDecimal a = true := by
  cases h with
  | int h => exact .inl ⟨_, rfl, .int h⟩
  | long h => exact .inl ⟨_, rfl, .long h⟩
  | _ => exact .inr rfl

theorem decimal_type {a : Value} (h : IsDecimal a = true) : getDataType a = .decimal := by
  cases a <;> first | rfl | cases h

theorem num_isDecimal {a : Value} {x : ℚ} (h : Num a x) : (getDataType a == .decimal) = IsDecimal a := by
  cases h <;> rfl

theorem num_notText {a : Value} {x : ℚ} (h : Num a x) : isStringType (getDataType a) = false := by
  cases h <;> rfl

theorem getOpt_some {α : Type} (a : α) : getOpt (.ok (some a)) = .ok a := rfl

theorem rightValid_eq {b : Value} (h : b ≠ .null) (t : DataType) : rightValid t b = isValid t b := by
  cases b <;> first | rfl | exact absurd rfl h

theorem apply_num (env : Env) {o : ArithOp} {a b : Value} {x y : ℚ} (ha : Num a x) (hb : Num b y) (ho : o ≠ .mod) :
    Arith.apply env o a b = evalArithOp env o a (getDataType a) b (getDataType b) := by
  unfold Arith.apply
  rw [arithBinary_eq, num_valid ha, rightValid_eq (num_ne_null hb), num_valid hb]
  have al : ∀ {c : Value} {z : ℚ}, Num c z → o.allows (getDataType c) = true := by
    intro c z h; cases h <;> cases o <;> first | rfl | exact absurd rfl ho
  rw [al ha, al hb]; rfl

theorem apply_mod (env : Env) {a b : Value} {m n : ℤ} (ha : Whole a m) (hb : Whole b n) :
    Arith.apply env .mod a b = evalArithOp env .mod a (getDataType a) b (getDataType b) := by
  unfold Arith.apply
  rw [arithBinary_eq, num_valid (whole_num ha), rightValid_eq (num_ne_null (whole_num hb)), num_valid (whole_num hb)]
  have al : ∀ {c : Value} {z : ℤ}, Whole c z → ArithOp.mod.allows (getDataType c) = true := by
    intro c z h; cases h <;> rfl
  rw [al ha, al hb]; rfl

theorem whole_asLong {a : Value} {n : ℤ} (h : Whole a n) : asLong a = .ok (some n) := by
  cases h with
  | int h => simp [asLong, Value.text, Dec.parse_intStr, Dec.toInt64?_scale0 h.to64]
  | long h => rfl

theorem whole_asInt {a : Value} {n : ℤ} (h : Whole a n) (hl : IsLong a = false) : asInt a = .ok (some n) := by
  cases h with
  | int h => rfl
  | long h => cases hl

theorem whole_notDecimal {a : Value} {n : ℤ} (h : Whole a n) : (getDataType a == .decimal) = false := by
  cases h <;> rfl

theorem whole_isLong {a : Value} {n : ℤ} (h : Whole a n) : (getDataType a == .long) = IsLong a := by
  cases h <;> rfl

theorem wrapped64 (n : ℤ) : Wrapped64 (wrap64 n) n := by
  refine ⟨wrap64_in n, ?_⟩
  unfold Int.ModEq wrap64; omega

theorem wrapped32 (n : ℤ) : Wrapped32 (wrap32 n) n := by
  refine ⟨wrap32_in n, ?_⟩
  unfold Int.ModEq wrap32; omega

theorem wrapped64_exact {k n : ℤ} (h : Wrapped64 k n) (hn : InInt64 n) : k = n := by
  obtain ⟨hk, hm⟩ := h
  unfold InInt64 at hk hn; unfold Int.ModEq at hm; omega

theorem wrapped32_exact {k n : ℤ} (h : Wrapped32 k n) (hn : InInt32 n) : k = n := by
  obtain ⟨hk, hm⟩ := h
  unfold InInt32 at hk hn; unfold Int.ModEq at hm; omega

theorem castLong_eq (n : ℤ) : castLong n = wholeValue n := rfl

theorem apply_add_whole (env : Env) {a b : Value} {m n : ℤ} (ha : Whole a m) (hb : Whole b n) :
    Arith.apply env .add a b = .ok (wholeValue (wrap64 (m + n))) := by
  rw [apply_num env (whole_num ha) (whole_num hb) (by decide)]
  simp only [evalArithOp, num_notText (whole_num ha), num_notText (whole_num hb), whole_notDecimal ha,
    whole_notDecimal hb, whole_asLong ha, whole_asLong hb, getOpt_some, Bool.or_false, Bool.false_eq_true, if_false,
    ok_bind, castLong_eq]
  rfl

theorem apply_mul_whole (env : Env) {a b : Value} {m n : ℤ} (ha : Whole a m) (hb : Whole b n) :
    Arith.apply env .mul a b = .ok (wholeValue (wrap64 (m * n))) := by
  rw [apply_num env (whole_num ha) (whole_num hb) (by decide)]
  simp only [evalArithOp, whole_notDecimal ha,
    whole_notDecimal hb, whole_asLong ha, whole_asLong hb, getOpt_some, Bool.or_false, Bool.false_eq_true, if_false,
    ok_bind, castLong_eq]
  rfl

theorem apply_sub_whole (env : Env) {a b : Value} {m n : ℤ} (ha : Whole a m) (hb : Whole b n) :
    Arith.apply env .sub a b =
      .ok (if IsLong a || IsLong b then .long (wrap64 (m - n)) else .int (wrap32 (m - n))) := by
  rw [apply_num env (whole_num ha) (whole_num hb) (by decide)]
  simp only [evalArithOp, whole_notDecimal ha, whole_notDecimal hb, Bool.or_false, Bool.false_eq_true, if_false,
    whole_isLong ha, whole_isLong hb]
  cases hl : (IsLong a || IsLong b) with
  | true => simp only [if_true, whole_asLong ha, whole_asLong hb, getOpt_some, ok_bind]; rfl
  | false =>
    rw [Bool.or_eq_false_iff] at hl
    simp only [Bool.false_eq_true, if_false, whole_asInt ha hl.1, whole_asInt hb hl.2, getOpt_some, ok_bind]; rfl

theorem apply_mod_whole (env : Env) {a b : Value} {m n : ℤ} (ha : Whole a m) (hb : Whole b n) :
    Arith.apply env .mod a b =
      if n = 0 then .error .arithmetic
      else .ok (if IsLong a || IsLong b then .long (m.tmod n) else .int (m.tmod n)) := by
  rw [apply_mod env ha hb]
  simp only [evalArithOp, whole_isLong ha, whole_isLong hb]
  cases hl : (IsLong a || IsLong b) with
  | true =>
    simp only [if_true, whole_asLong ha, whole_asLong hb, getOpt_some, ok_bind]
    by_cases h : n = 0 <;> simp [h] <;> rfl
  | false =>
    rw [Bool.or_eq_false_iff] at hl
    simp only [Bool.false_eq_true, if_false, whole_asInt ha hl.1, whole_asInt hb hl.2, getOpt_some, ok_bind]
    by_cases h : n = 0 <;> simp [h] <;> rfl

/-- `+ - *` on decimals. -/
def decOp : ArithOp → Dec → Dec → Dec
  | .add => Dec.add
  | .sub => Dec.sub
  | _ => Dec.mul

/-- `+ - *` on rationals. -/
def ratOp : ArithOp → ℚ → ℚ → ℚ
  | .add, x, y => x + y
  | .sub, x, y => x - y
  | _, x, y => x * y

theorem apply_decimal (env : Env) {o : ArithOp} (ho : o = .add ∨ o = .sub ∨ o = .mul) {a b : Value} {x y : ℚ}
    (ha : Num a x) (hb : Num b y) (hd : IsDecimal a = true ∨ IsDecimal b = true) {e f : Dec}
    (he : asDec a = .ok (some e)) (hf : asDec b = .ok (some f)) :
    Arith.apply env o a b = .ok (.dec (decOp o e f)) := by
  have hd' : (IsDecimal a || IsDecimal b) = true := by rcases hd with h | h <;> simp [h]
  rcases ho with rfl | rfl | rfl <;>
  · rw [apply_num env ha hb (by decide)]
    simp only [evalArithOp, num_notText ha, num_notText hb, num_isDecimal ha, num_isDecimal hb, hd', Bool.or_false,
      Bool.false_eq_true, if_false, if_true, he, hf, getOpt_some, ok_bind]
    rfl

theorem apply_div (env : Env) {a b : Value} {x y : ℚ} (ha : Num a x) (hb : Num b y) (hy : y ≠ 0) :
    Returns (Arith.apply env .div a b) ((truncate (x / y * 1000) : ℚ) / 1000) := by
  obtain ⟨e, he, hex⟩ := num_asDec ha
  obtain ⟨f, hf, hfy⟩ := num_asDec hb
  rw [apply_num env ha hb (by decide)]
  simp only [evalArithOp, he, hf, getOpt_some, ok_bind]
  obtain ⟨d, hd, hs, hu⟩ := divDown_val e f (by rw [hfy]; exact hy) 3
  rw [hd, ok_bind]
  have hval : decVal d = (truncate (x / y * 1000) : ℚ) / 1000 := by
    unfold decVal
    rw [hs, hu, hex, hfy]
    rw [show (10 : ℚ) ^ (3 : ℤ) = 1000 by norm_num, show (10 : ℚ) ^ (-3 : ℤ) = 1 / 1000 by norm_num, mul_one_div]
  rw [← hval]
  exact castDecimal_returns d

theorem apply_div_zero (env : Env) {a b : Value} {x : ℚ} (ha : Num a x) (hb : Num b 0) :
    Arith.apply env .div a b = .error .arithmetic := by
  obtain ⟨e, he, hex⟩ := num_asDec ha
  obtain ⟨f, hf, hfy⟩ := num_asDec hb
  rw [apply_num env ha hb (by decide)]
  simp only [evalArithOp, he, hf, getOpt_some, ok_bind]
  unfold Dec.divDown
  rw [if_pos ((decVal_eq_zero f).mp hfy)]; rfl

/-! ### Doubles -/

theorem log2Go_pow (f t : ℕ) (h : t ≤ f) : log2Go f (2 ^ t) = t := by
  induction f generalizing t with
  | zero =>
    have : t = 0 := by omega
    subst this; rfl
  | succ f ih =>
    unfold log2Go
    cases t with
    | zero => simp
    | succ t =>
      have : ¬ (2 ^ (t + 1) < 2) := by
        have := Nat.pow_le_pow_right (n := 2) (by decide) (show 1 ≤ t + 1 by omega)
        omega
      rw [if_neg this, pow_succ, Nat.mul_div_cancel _ (by decide), ih t (by omega)]

theorem dblToDec_val (m e : ℤ) : decVal (dblToDec m e) = (m : ℚ) * 2 ^ e := by
  unfold dblToDec
  by_cases he : 0 ≤ e
  · rw [if_pos he]
    simp only [decVal, neg_zero, zpow_zero, mul_one]
    push_cast
    obtain ⟨k, rfl⟩ := Int.eq_ofNat_of_zero_le he
    simp
  · rw [if_neg he]
    simp only
    obtain ⟨j, rfl⟩ : ∃ j : ℕ, e = -(j : ℤ) := ⟨(-e).toNat, by omega⟩
    simp only [neg_neg, Int.toNat_natCast]
    have hg : Nat.gcd m.natAbs (2 ^ j) ∣ 2 ^ j := Nat.gcd_dvd_right _ _
    obtain ⟨t, ht, hdiv⟩ := (Nat.dvd_prime_pow Nat.prime_two).mp (Nat.div_dvd_of_dvd hg)
    rw [hdiv, log2Go_pow _ _ (by omega)]
    have hgpos : 0 < Nat.gcd m.natAbs (2 ^ j) := Nat.gcd_pos_of_pos_right _ (by positivity)
    have hden : (2 : ℚ) ^ j = 2 ^ t * Nat.gcd m.natAbs (2 ^ j) := by
      have := Nat.div_mul_cancel hg
      rw [hdiv] at this
      exact_mod_cast this.symm
    have hm : (m / (Nat.gcd m.natAbs (2 ^ j) : ℤ)) * (Nat.gcd m.natAbs (2 ^ j) : ℤ) = m :=
      Int.ediv_mul_cancel (Int.natCast_dvd.mpr (Nat.gcd_dvd_left _ _))
    have hm' : ((m / (Nat.gcd m.natAbs (2 ^ j) : ℤ) : ℤ) : ℚ) * (Nat.gcd m.natAbs (2 ^ j) : ℚ) = m := by
      exact_mod_cast hm
    have hgq : ((Nat.gcd m.natAbs (2 ^ j) : ℕ) : ℚ) ≠ 0 := by exact_mod_cast hgpos.ne'
    simp only [decVal]
    push_cast
    rw [zpow_neg, zpow_neg, zpow_natCast, zpow_natCast, hden, ← hm',
      show (10 : ℚ) ^ t = 2 ^ t * 5 ^ t by rw [← mul_pow]; norm_num]
    simp only [hm']
    rw [← hm']
    have h5 : (5 : ℚ) ^ t ≠ 0 := by positivity
    have h2 : (2 : ℚ) ^ t ≠ 0 := by positivity
    generalize ((Nat.gcd m.natAbs (2 ^ j) : ℕ) : ℚ) = g at *
    generalize ((m / (Nat.gcd m.natAbs (2 ^ j) : ℤ) : ℤ) : ℚ) = q at *
    field_simp

theorem castDouble_whole {k e n : ℤ} (h : (k : ℚ) * 2 ^ e = n) (hn : InInt32 n) :
    castDouble (.fin k e) = .ok (.int n) := by
  have hv := dblToDec_val k e
  rw [h] at hv
  have hi := (isIntegral_iff _).mpr ⟨n, hv⟩
  have ht : (dblToDec k e).trunc = n := by have := trunc_integral hi; rw [hv] at this; exact_mod_cast this
  simp only [castDouble]
  rw [if_pos ⟨hi, by rw [ht]; exact hn⟩, ht]

theorem castDouble_num (k e : ℤ) : ∃ v, castDouble (.fin k e) = .ok v ∧ Num v ((k : ℚ) * 2 ^ e) := by
  have hv := dblToDec_val k e
  refine ⟨_, rfl, ?_⟩
  split
  · rename_i h
    rw [← hv, ← trunc_integral h.1]
    exact .int h.2
  · rw [← hv]; exact .dec _

theorem apply_exp_whole (env : Env) {a b : Value} {m n : ℤ} (ha : Whole a m) (hb : Whole b n) :
    Arith.apply env .exp a b = castDouble (env.powL m n) := by
  rw [apply_num env (whole_num ha) (whole_num hb) (by decide)]
  simp only [evalArithOp, whole_notDecimal ha,
    whole_notDecimal hb, whole_asLong ha, whole_asLong hb, getOpt_some, Bool.or_false, Bool.false_eq_true, if_false,
    ok_bind]

/-! ### Text -/

theorem textual_type {a : Value} (h : Textual a) : isStringType (getDataType a) = true := by
  cases h with
  | str h => rw [ordinary_type h]; rfl
  | _ => rfl

theorem textual_valid {a : Value} (h : Textual a) : isValid (getDataType a) a = .ok true := by
  cases h with
  | str h => rw [ordinary_type h]; rfl
  | bool b => rfl
  | _ => rfl

theorem textual_ne {a : Value} (h : Textual a) : a ≠ .null := by cases h <;> simp

theorem apply_text (env : Env) {a b : Value} (ha : Addable a) (hb : Addable b) (ht : Textual a ∨ Textual b) :
    Arith.apply env .add a b = .ok (.str (a.text ++ b.text)) := by
  have va : ∀ {c : Value}, Addable c → ArithOp.add.allows (getDataType c) = true ∧
      isValid (getDataType c) c = .ok true ∧ c ≠ .null := by
    intro c hc
    rcases hc with h | ⟨x, h⟩
    · refine ⟨?_, textual_valid h, textual_ne h⟩
      simp [ArithOp.allows, textual_type h]
    · refine ⟨?_, num_valid h, num_ne_null h⟩
      rcases num_type h with h | h | h <;> simp [ArithOp.allows, h]
  obtain ⟨a1, a2, a3⟩ := va ha
  obtain ⟨b1, b2, b3⟩ := va hb
  have ht' : (isStringType (getDataType a) || isStringType (getDataType b)) = true := by
    rcases ht with h | h <;> simp [textual_type h]
  unfold Arith.apply
  rw [arithBinary_eq, a1, b1, a2, rightValid_eq b3, b2]
  simp only [ok_bind, Bool.not_true, Bool.false_eq_true, if_false, evalArithOp, ht', if_true]

/-- An operator expression written as text. -/
theorem op_text {s : JStr} {o : ArithOp} {l r : Arith} (h : WritesArith s (.op o l r)) {env : Env} {d : Data}
    {a b : Value} (hl : l.value env d = .ok a) (hr : r.value env d = .ok b) :
    evaluateArith env s d = .ofResult (Arith.apply env o a b) := by
  rw [h.eval env d, Arith.value, hl, ok_bind, hr, ok_bind]

end BoolParser
