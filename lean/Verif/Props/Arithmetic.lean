import Verif.Lemmas.Arithmetic
import Verif.Lemmas.Checker
import Verif.Props.Comparison
/-!
# Arithmetic

C18, C19, C20, C21, C22, C23, C24, C25.

`s` is a text that writes `l o r` (or `-e`); `a`, `b` are the values of the operands under the given data.
-/

namespace BoolParser
open Spec

/-! ## C18 Addition and multiplication of whole numbers -/

/-- **C18**, sums: the mathematical sum if it fits 64 bits (an `Integer` iff it fits 32), otherwise the 64-bit
two's complement number for it. -/
theorem C18_add {l r : Arith} {s : JStr} (h : WritesArith s (.op .add l r)) {env : Env} {d : Data} {a b : Value}
    {m n : ℤ} (hl : l.value env d = .ok a) (hr : r.value env d = .ok b) (ha : Whole a m) (hb : Whole b n) :
    (InInt64 (m + n) → evaluateArith env s d = .success (wholeValue (m + n))) ∧
    ∃ k, Wrapped64 k (m + n) ∧ evaluateArith env s d = .success (wholeValue k) := by
  rw [op_text h hl hr, apply_add_whole env ha hb]
  exact ⟨fun hin => by rw [wrap64_of_in hin]; rfl, _, wrapped64 _, rfl⟩

/-- **C18**, products. -/
theorem C18_mul {l r : Arith} {s : JStr} (h : WritesArith s (.op .mul l r)) {env : Env} {d : Data} {a b : Value}
    {m n : ℤ} (hl : l.value env d = .ok a) (hr : r.value env d = .ok b) (ha : Whole a m) (hb : Whole b n) :
    (InInt64 (m * n) → evaluateArith env s d = .success (wholeValue (m * n))) ∧
    ∃ k, Wrapped64 k (m * n) ∧ evaluateArith env s d = .success (wholeValue k) := by
  rw [op_text h hl hr, apply_mul_whole env ha hb]
  exact ⟨fun hin => by rw [wrap64_of_in hin]; rfl, _, wrapped64 _, rfl⟩

/-- `wholeValue n` is an `Integer` iff `n` fits 32 bits, and denotes `n`. -/
theorem C18_wholeValue {n : ℤ} (h : InInt64 n) :
    Whole (wholeValue n) n ∧ (wholeValue n = .int n ↔ InInt32 n) := by
  unfold wholeValue
  split
  · rename_i h32; exact ⟨.int h32, by simp [h32]⟩
  · rename_i h32; exact ⟨.long h, by simp [h32]⟩

example (env : Env) (m n : ℤ) (hm : InInt32 m) (hn : InInt32 n) :
    evaluateArith env j!"a * b" [(['a'], .int m), (['b'], .int n)] = .success (wholeValue (m * n)) := by
  refine (C18_mul (l := .field ['a']) (r := .field ['b']) (writesArith_of (by krfl)) (by rfl) (by rfl)
    (.int hm) (.int hn)).1 ?_
  unfold InInt32 at hm hn; unfold InInt64
  constructor <;> nlinarith

example (env : Env) :
    evaluateArith env j!"a + 1" [(['a'], .long 9223372036854775807)] = .success (.long (-9223372036854775808)) := by
  krfl

/-! ## C19 Subtraction of whole numbers -/

/-- **C19**, what holds: the difference in the width of the operands (64 bits if one of them is a `Long`), exact
if it fits that width. Missing: two `Integer`s whose difference needs more than 32 bits, see
`C19_wraps`. -/
theorem C19_sub_partial {l r : Arith} {s : JStr} (h : WritesArith s (.op .sub l r)) {env : Env} {d : Data}
    {a b : Value} {m n : ℤ} (hl : l.value env d = .ok a) (hr : r.value env d = .ok b) (ha : Whole a m)
    (hb : Whole b n) :
    (IsLong a = true ∨ IsLong b = true →
      (InInt64 (m - n) → evaluateArith env s d = .success (.long (m - n))) ∧
      ∃ k, Wrapped64 k (m - n) ∧ evaluateArith env s d = .success (.long k)) ∧
    (IsLong a = false ∧ IsLong b = false →
      (InInt32 (m - n) → evaluateArith env s d = .success (.int (m - n))) ∧
      ∃ k, Wrapped32 k (m - n) ∧ evaluateArith env s d = .success (.int k)) := by
  rw [op_text h hl hr, apply_sub_whole env ha hb]
  constructor
  · intro hlong
    have : (IsLong a || IsLong b) = true := by rcases hlong with h | h <;> simp [h]
    rw [this]
    exact ⟨fun hin => by rw [wrap64_of_in hin]; rfl, _, wrapped64 _, rfl⟩
  · rintro ⟨h1, h2⟩
    rw [h1, h2]
    exact ⟨fun hin => by rw [wrap32_of_in hin]; rfl, _, wrapped32 _, rfl⟩

/-- **C19** is false: the difference of two `Integer`s wraps around. -/
theorem C19_wraps (env : Env) :
    evaluateArith env j!"a - b" [(['a'], .int (-2147483648)), (['b'], .int 1)] = .success (.int 2147483647) := by krfl

/-- Every difference of two `Integer`s that does not fit 32 bits is wrong. -/
theorem C19_wrong {l r : Arith} {s : JStr} (h : WritesArith s (.op .sub l r)) {env : Env} {d : Data}
    {m n : ℤ} (hl : l.value env d = .ok (.int m)) (hr : r.value env d = .ok (.int n)) (hm : InInt32 m)
    (hn : InInt32 n) (hout : ¬ InInt32 (m - n)) :
    ∃ k, evaluateArith env s d = .success (.int k) ∧ k ≠ m - n := by
  obtain ⟨k, hk, he⟩ := ((C19_sub_partial h hl hr (.int hm) (.int hn)).2 ⟨rfl, rfl⟩).2
  refine ⟨k, he, ?_⟩
  rintro rfl
  exact hout hk.1

example (env : Env) (m : ℤ) (hm : InInt64 m) (hm' : InInt64 (m - 5)) :
    evaluateArith env j!"a - 5" [(['a'], .long m)] = .success (.long (m - 5)) :=
  ((C19_sub_partial (l := .field ['a']) (r := .lit (.int ['5'])) (writesArith_of (by krfl)) (by rfl) (by rfl)
    (.long hm) (b := .int 5) (.int (by decide))).1 (.inl rfl)).1 hm'

/-! ## C20 Decimals -/

/-- `+`, `-` or `*`. -/
def IsRingOp (o : ArithOp) : Prop := o = .add ∨ o = .sub ∨ o = .mul

/-- **C20.** With a decimal operand, `+`, `-`, `*` give a `BigDecimal` with the exact mathematical value. -/
theorem C20_exact {o : ArithOp} (ho : IsRingOp o) {l r : Arith} {s : JStr} (h : WritesArith s (.op o l r)) {env : Env}
    {d : Data} {a b : Value} {x y : ℚ} (hl : l.value env d = .ok a) (hr : r.value env d = .ok b) (ha : Num a x)
    (hb : Num b y) (hd : IsDecimal a = true ∨ IsDecimal b = true) :
    ∃ z, evaluateArith env s d = .success (.dec z) ∧
      (o = .add → decVal z = x + y) ∧ (o = .sub → decVal z = x - y) ∧ (o = .mul → decVal z = x * y) := by
  obtain ⟨e, he, rfl⟩ := num_asDec ha
  obtain ⟨f, hf, rfl⟩ := num_asDec hb
  refine ⟨decOp o e f, by rw [op_text h hl hr, apply_decimal env ho ha hb hd he hf]; rfl, ?_, ?_, ?_⟩
  · rintro rfl; exact decVal_add e f
  · rintro rfl; exact decVal_sub e f
  · rintro rfl; exact decVal_mul e f

/-- **C20**, commutativity of `+` and `*` (the very same `BigDecimal`). -/
theorem C20_commutes {o : ArithOp} (ho : o = .add ∨ o = .mul) {l r : Arith} {s s' : JStr}
    (h : WritesArith s (.op o l r)) (h' : WritesArith s' (.op o r l)) {env : Env} {d : Data} {a b : Value} {x y : ℚ}
    (hl : l.value env d = .ok a) (hr : r.value env d = .ok b) (ha : Num a x) (hb : Num b y)
    (hd : IsDecimal a = true ∨ IsDecimal b = true) : evaluateArith env s d = evaluateArith env s' d := by
  obtain ⟨e, he, rfl⟩ := num_asDec ha
  obtain ⟨f, hf, rfl⟩ := num_asDec hb
  have ho' : IsRingOp o := by rcases ho with rfl | rfl <;> simp [IsRingOp]
  rw [op_text h hl hr, op_text h' hr hl, apply_decimal env ho' ha hb hd he hf,
    apply_decimal env ho' hb ha hd.symm hf he]
  rcases ho with rfl | rfl
  · show Outcome.ofResult (.ok (Value.dec (e.add f))) = .ofResult (.ok (Value.dec (f.add e))); rw [Dec.add_comm']
  · show Outcome.ofResult (.ok (Value.dec (e.mul f))) = .ofResult (.ok (Value.dec (f.mul e))); rw [Dec.mul_comm']

/-- **C20**, associativity in value: `(l o m) o r` and `l o (m o r)`, for a decimal in the middle. -/
theorem C20_associates {o : ArithOp} (ho : o = .add ∨ o = .mul) {l m r : Arith} {s s' : JStr}
    (h : WritesArith s (.op o (.group (.op o l m)) r)) (h' : WritesArith s' (.op o l (.group (.op o m r))))
    {env : Env} {d : Data} {a b c : Value} {x y z : ℚ} (hl : l.value env d = .ok a) (hm : m.value env d = .ok b)
    (hr : r.value env d = .ok c) (ha : Num a x) (hb : Num b y) (hc : Num c z)
    (hab : IsDecimal a = true ∨ IsDecimal b = true) (hbc : IsDecimal b = true ∨ IsDecimal c = true) :
    ∃ u v, evaluateArith env s d = .success (.dec u) ∧ evaluateArith env s' d = .success (.dec v) ∧
      decVal u = decVal v := by
  have ho' : IsRingOp o := by rcases ho with rfl | rfl <;> simp [IsRingOp]
  obtain ⟨e, he, rfl⟩ := num_asDec ha
  obtain ⟨f, hf, rfl⟩ := num_asDec hb
  obtain ⟨g, hg, rfl⟩ := num_asDec hc
  have h1 : (Arith.group (.op o l m)).value env d = .ok (.dec (decOp o e f)) := by
    rw [Arith.value, Arith.value, hl, ok_bind, hm, ok_bind, apply_decimal env ho' ha hb hab he hf]
  have h2 : (Arith.group (.op o m r)).value env d = .ok (.dec (decOp o f g)) := by
    rw [Arith.value, Arith.value, hm, ok_bind, hr, ok_bind, apply_decimal env ho' hb hc hbc hf hg]
  refine ⟨_, _, by rw [op_text h h1 hr, apply_decimal env ho' (.dec _) hc (.inl rfl) rfl hg]; rfl,
    by rw [op_text h' hl h2, apply_decimal env ho' ha (.dec _) (.inr rfl) he rfl]; rfl, ?_⟩
  rcases ho with rfl | rfl
  · show decVal ((e.add f).add g) = decVal (e.add (f.add g))
    simp only [decVal_add, add_assoc]
  · show decVal ((e.mul f).mul g) = decVal (e.mul (f.mul g))
    simp only [decVal_mul, mul_assoc]

example (env : Env) (x : Dec) : ∃ z, evaluateArith env j!"a - 0.1" [(['a'], .dec x)] = .success (.dec z) ∧
    decVal z = decVal x - 1 / 10 := by
  obtain ⟨z, h1, _, h2, _⟩ := C20_exact (o := .sub) (.inr (.inl rfl)) (l := .field ['a']) (r := .lit (.dec ['0'] ['1']))
    (s := j!"a - 0.1") (writesArith_of (by krfl)) (env := env) (d := [(['a'], .dec x)]) (a := .dec x)
    (b := .dec ⟨1, 1⟩) (by rfl) (by krfl) (.dec x) (.dec _) (.inl rfl)
  exact ⟨z, h1, by rw [h2 rfl]; simp [decVal]⟩

example (env : Env) (d : Data) (a c : Value) (x z : ℚ) (ha : Num a x) (hc : Num c z)
    (h1 : (Arith.field ['a']).value env d = .ok a) (h2 : (Arith.field ['c']).value env d = .ok c) :
    ∃ u v, evaluateArith env j!"(a + 0.5) + c" d = .success (.dec u) ∧
      evaluateArith env j!"a + (0.5 + c)" d = .success (.dec v) ∧ decVal u = decVal v :=
  C20_associates (.inl rfl) (l := .field ['a']) (m := .lit (.dec ['0'] ['5'])) (r := .field ['c'])
    (writesArith_of (by krfl)) (writesArith_of (by krfl)) h1 (b := .dec ⟨5, 1⟩) (by krfl) h2 ha (.dec _) hc (.inr rfl) (.inl rfl)

/-! ## C21 Division -/

/-- **C21.** The quotient truncated towards zero at three decimals: an `Integer` if that is whole and fits 32 bits,
a failure if it is whole and does not fit, a `BigDecimal` otherwise. -/
theorem C21_div {l r : Arith} {s : JStr} (h : WritesArith s (.op .div l r)) {env : Env} {d : Data} {a b : Value}
    {x y : ℚ} (hl : l.value env d = .ok a) (hr : r.value env d = .ok b) (ha : Num a x) (hb : Num b y) (hy : y ≠ 0) :
    ∃ q : Result Value, evaluateArith env s d = .ofResult q ∧ Returns q ((truncate (x / y * 1000) : ℚ) / 1000) :=
  ⟨_, op_text h hl hr, apply_div env ha hb hy⟩

/-- Truncation towards zero at three decimals: never larger in magnitude, less than 0.001 away, same sign. -/
theorem C21_truncation (x : ℚ) : let q := (truncate (x * 1000) : ℚ) / 1000
    |q| ≤ |x| ∧ |x - q| < 1 / 1000 ∧ 0 ≤ q * x := by
  intro q
  have key : |(truncate (x * 1000) : ℚ)| ≤ |x * 1000| ∧ |x * 1000 - truncate (x * 1000)| < 1 ∧
      0 ≤ (truncate (x * 1000) : ℚ) * (x * 1000) := by
    generalize x * 1000 = z
    unfold truncate
    split
    · rename_i hz
      have h1 := Int.floor_le z
      have h2 := Int.lt_floor_add_one z
      have h3 : (0 : ℚ) ≤ (⌊z⌋ : ℚ) := by exact_mod_cast Int.floor_nonneg.mpr hz
      refine ⟨by rw [abs_of_nonneg h3, abs_of_nonneg hz]; exact h1, ?_, mul_nonneg h3 hz⟩
      rw [abs_of_nonneg (by linarith)]; linarith
    · rename_i hz
      have hz' : z < 0 := not_le.mp hz
      have h1 := Int.le_ceil z
      have h2 := Int.ceil_lt_add_one z
      have h3 : (⌈z⌉ : ℚ) ≤ 0 := by exact_mod_cast Int.ceil_le.mpr (by simpa using hz'.le)
      refine ⟨by rw [abs_of_nonpos h3, abs_of_nonpos hz'.le]; linarith, ?_,
        mul_nonneg_of_nonpos_of_nonpos h3 hz'.le⟩
      rw [abs_of_nonpos (by linarith)]; linarith
  obtain ⟨k1, k2, k3⟩ := key
  refine ⟨?_, ?_, ?_⟩
  · rw [abs_div, abs_of_pos (show (0 : ℚ) < 1000 by norm_num), div_le_iff₀ (by norm_num)]
    rwa [abs_mul, abs_of_pos (show (0 : ℚ) < 1000 by norm_num)] at k1
  · have : x - q = (x * 1000 - truncate (x * 1000)) / 1000 := by show x - _ / 1000 = _; ring
    rw [this, abs_div, abs_of_pos (show (0 : ℚ) < 1000 by norm_num)]
    linarith
  · have : q * x = (truncate (x * 1000) : ℚ) * (x * 1000) / 1000000 := by show _ / 1000 * x = _; ring
    rw [this]; positivity

/-- **C21**, division by zero always fails, whatever the dividend is. -/
theorem C21_zero {l r : Arith} {s : JStr} (h : WritesArith s (.op .div l r)) {env : Env} {d : Data} {b : Value}
    (hr : r.value env d = .ok b) (hb : Num b 0) : ∃ e, evaluateArith env s d = .failure e := by
  cases hl : l.value env d with
  | error e => exact ⟨e, by rw [h.eval env d, Arith.value, hl]; rfl⟩
  | ok a =>
    rw [op_text h hl hr]
    unfold Arith.apply
    rw [arithBinary_eq]
    by_cases hal : ArithOp.div.allows (getDataType a) = true
    · simp only [hal, Bool.not_true, Bool.false_eq_true, if_false]
      cases hv : isValid (getDataType a) a with
      | error e => exact ⟨e, rfl⟩
      | ok v =>
        cases v with
        | false => exact ⟨_, rfl⟩
        | true =>
          have hal' : ArithOp.div.allows (getDataType b) = true := by
            rcases num_type hb with h | h | h <;> rw [h] <;> rfl
          simp only [ok_bind, Bool.not_true, Bool.false_eq_true, if_false, hal', rightValid_eq (num_ne_null hb),
            num_valid hb]
          simp only [evalArithOp]
          cases ha : getOpt (asDec a) with
          | error e => exact ⟨e, rfl⟩
          | ok e =>
            obtain ⟨f, hf, hfy⟩ := num_asDec hb
            simp only [ok_bind, hf, getOpt_some]
            unfold Dec.divDown
            rw [if_pos ((decVal_eq_zero f).mp hfy)]
            exact ⟨_, rfl⟩
    · simp only [hal, Bool.not_false, if_true]
      exact ⟨_, rfl⟩

/-- **C21**, the failure for numbers is an `ArithmeticException`. -/
theorem C21_zero_numbers {l r : Arith} {s : JStr} (h : WritesArith s (.op .div l r)) {env : Env} {d : Data}
    {a b : Value} {x : ℚ} (hl : l.value env d = .ok a) (hr : r.value env d = .ok b) (ha : Num a x) (hb : Num b 0) :
    evaluateArith env s d = .failure .arithmetic := by
  rw [op_text h hl hr, apply_div_zero env ha hb]; rfl

example (env : Env) (d : Data) : evaluateArith env j!"-7 / 2" d = .success (.dec ⟨-3500, 3⟩) ∧
    evaluateArith env j!"6 / 3" d = .success (.int 2) ∧ evaluateArith env j!"2 / 3" d = .success (.dec ⟨666, 3⟩) ∧
    evaluateArith env j!"3000000000 / 1" d = .failure .arithmetic := ⟨by krfl, by krfl, by krfl, by krfl⟩

example (env : Env) (n : ℤ) (hn : InInt32 n) : evaluateArith env j!"a / 0.00" [(['a'], .int n)] = .failure .arithmetic :=
  C21_zero_numbers (l := .field ['a']) (r := .lit (.dec ['0'] j!"00")) (writesArith_of (by krfl)) (by rfl)
    (b := .dec ⟨0, 2⟩) (by krfl) (.int hn) (by have := Num.dec ⟨0, 2⟩; simpa [decVal] using this)

/-! ## C22 Modulus -/

theorem tmod_nonpos' {m : ℤ} (n : ℤ) (h : m ≤ 0) : m.tmod n ≤ 0 := by
  have h1 := Int.tmod_nonneg n (neg_nonneg.mpr h)
  rw [Int.neg_tmod] at h1
  omega

/-- **C22.** The remainder of whole numbers: smaller than the divisor in magnitude, with the sign of the dividend
(or 0), and the difference is divisible by the divisor. -/
theorem C22_mod {l r : Arith} {s : JStr} (h : WritesArith s (.op .mod l r)) {env : Env} {d : Data} {a b : Value}
    {m n : ℤ} (hl : l.value env d = .ok a) (hr : r.value env d = .ok b) (ha : Whole a m) (hb : Whole b n)
    (hn : n ≠ 0) :
    ∃ v k, evaluateArith env s d = .success v ∧ Whole v k ∧ (IsLong v = true ↔ IsLong a = true ∨ IsLong b = true) ∧
      |k| < |n| ∧ 0 ≤ k * m ∧ n ∣ m - k := by
  have h1 : |m.tmod n| < |n| := by
    have := Int.natAbs_tmod m n
    have h2 := Nat.mod_lt m.natAbs (Int.natAbs_pos.mpr hn)
    rw [Int.abs_eq_natAbs, Int.abs_eq_natAbs, this]; exact_mod_cast h2
  have h2 : 0 ≤ m.tmod n * m := by
    rcases le_total 0 m with hm | hm
    · exact mul_nonneg (Int.tmod_nonneg n hm) hm
    · have : m.tmod n ≤ 0 := tmod_nonpos' n hm
      exact mul_nonneg_of_nonpos_of_nonpos this hm
  have h3 : n ∣ m - m.tmod n := ⟨m.tdiv n, by have := Int.mul_tdiv_add_tmod m n; linarith⟩
  have hle : |m.tmod n| ≤ |m| := by
    rw [Int.abs_eq_natAbs, Int.abs_eq_natAbs, Int.natAbs_tmod]
    exact_mod_cast Nat.mod_le _ _
  rw [op_text h hl hr, apply_mod_whole env ha hb, if_neg hn]
  have hm := whole_in ha
  cases hL : (IsLong a || IsLong b) with
  | true =>
    refine ⟨.long (m.tmod n), m.tmod n, rfl, .long ?_, ?_, h1, h2, h3⟩
    · by_cases hneg : m.tmod n = -9223372036854775808
      · rw [hneg]; decide
      · have h4 := abs_le.mp hle
        unfold InInt64 at hm ⊢
        rcases le_total 0 m with h0 | h0
        · rw [abs_of_nonneg h0] at h4; have := Int.tmod_nonneg n h0; omega
        · rw [abs_of_nonpos h0] at h4
          have : m.tmod n ≤ 0 := tmod_nonpos' n h0
          omega
    · rw [Bool.or_eq_true] at hL; exact ⟨fun _ => hL, fun _ => rfl⟩
  | false =>
    rw [Bool.or_eq_false_iff] at hL
    refine ⟨.int (m.tmod n), m.tmod n, rfl, .int ?_, by rw [hL.1, hL.2]; simp [IsLong], h1, h2, h3⟩
    have hm32 : InInt32 m := by
      cases ha with
      | int h => exact h
      | long h => cases hL.1
    have h4 := abs_le.mp hle
    unfold InInt32 at hm32 ⊢
    rcases le_total 0 m with h0 | h0
    · rw [abs_of_nonneg h0] at h4; have := Int.tmod_nonneg n h0; omega
    · rw [abs_of_nonpos h0] at h4
      have : m.tmod n ≤ 0 := tmod_nonpos' n h0
      omega

/-- **C22**, zero. -/
theorem C22_zero {l r : Arith} {s : JStr} (h : WritesArith s (.op .mod l r)) {env : Env} {d : Data} {a b : Value}
    {m : ℤ} (hl : l.value env d = .ok a) (hr : r.value env d = .ok b) (ha : Whole a m) (hb : Whole b 0) :
    evaluateArith env s d = .failure .arithmetic := by
  rw [op_text h hl hr, apply_mod_whole env ha hb]; rfl

/-- **C22**, decimals are rejected on either side. -/
theorem C22_decimal {l r : Arith} {s : JStr} (h : WritesArith s (.op .mod l r)) {env : Env} {d : Data} {a b : Value}
    (hl : l.value env d = .ok a) (hr : r.value env d = .ok b) (hd : IsDecimal a = true ∨ IsDecimal b = true) :
    evaluateArith env s d = .failure .invalidDataType := by
  rw [op_text h hl hr]
  unfold Arith.apply
  rw [arithBinary_eq]
  rcases hd with hd | hd
  · rw [decimal_type hd]; rfl
  · by_cases hal : ArithOp.mod.allows (getDataType a) = true
    · simp only [hal, Bool.not_true, Bool.false_eq_true, if_false]
      obtain ⟨v, hv⟩ := isValid_tame (getDataType a) (value_nn env d l a hl)
      rw [hv, decimal_type hd]
      cases v <;> rfl
    · simp only [hal, Bool.not_false, if_true]; rfl

example (env : Env) (m : ℤ) (hm : InInt32 m) :
    ∃ v k, evaluateArith env j!"a % 7" [(['a'], .int m)] = .success v ∧ Whole v k ∧ |k| < 7 ∧ 0 ≤ k * m ∧ 7 ∣ m - k := by
  obtain ⟨v, k, h1, h2, _, h3, h4, h5⟩ := C22_mod (l := .field ['a']) (r := .lit (.int ['7'])) (s := j!"a % 7")
    (writesArith_of (by krfl)) (env := env) (d := [(['a'], .int m)]) (a := .int m) (b := .int 7) (by rfl) (by krfl)
    (.int hm) (.int (by decide)) (by decide)
  exact ⟨v, k, h1, h2, by simpa using h3, h4, h5⟩

example (env : Env) (d : Data) : evaluateArith env j!"7 % 2.5" d = .failure .invalidDataType :=
  C22_decimal (l := .lit (.int ['7'])) (r := .lit (.dec ['2'] ['5'])) (writesArith_of (by krfl)) (by rfl) (by rfl)
    (.inr rfl)

/-! ## C23 Unary minus -/

theorem negate_num {a : Value} {x : ℚ} (h : Num a x) : Arith.negate a = evalNeg a (getDataType a) := by
  unfold Arith.negate
  rw [arithNegate_eq, num_valid h]
  rcases num_type h with h | h | h <;> rw [h] <;> rfl

theorem neg_text {e : Arith} {s : JStr} (h : WritesArith s (.neg e)) {env : Env} {d : Data} {a : Value}
    (he : e.value env d = .ok a) : evaluateArith env s d = .ofResult (Arith.negate a) := by
  rw [h.eval env d, Arith.value, he, ok_bind]

/-- `Integer`, `Long` or `BigDecimal`. -/
inductive Negatable : Value → Prop
  | int {n : ℤ} : InInt32 n → Negatable (.int n)
  | long {n : ℤ} : InInt64 n → Negatable (.long n)
  | dec (d : Dec) : Negatable (.dec d)

/-- **C23.** `-x` is the negation. -/
theorem C23_neg {e : Arith} {s : JStr} (h : WritesArith s (.neg e)) {env : Env} {d : Data} {a : Value} {x : ℚ}
    (he : e.value env d = .ok a) (ha : Num a x) (hk : Negatable a) (h32 : a ≠ .int (-2147483648))
    (h64 : a ≠ .long (-9223372036854775808)) :
    ∃ v, evaluateArith env s d = .success v ∧ Num v (-x) ∧ getDataType v = getDataType a := by
  rw [neg_text h he, negate_num ha]
  cases ha with
  | @int n hn =>
    have hin : InInt32 (-n) := by
      unfold InInt32 at hn ⊢
      have : n ≠ -2147483648 := by rintro rfl; exact h32 rfl
      omega
    refine ⟨.int (-n), by show Outcome.success (Value.int (wrap32 (-n))) = _; rw [wrap32_of_in hin], ?_, rfl⟩
    have := Num.int hin
    push_cast at this; exact this
  | @long n hn =>
    have hin : InInt64 (-n) := by
      unfold InInt64 at hn ⊢
      have : n ≠ -9223372036854775808 := by rintro rfl; exact h64 rfl
      omega
    refine ⟨.long (-n), by show Outcome.success (Value.long (wrap64 (-n))) = _; rw [wrap64_of_in hin], ?_, rfl⟩
    have := Num.long hin
    push_cast at this; exact this
  | dec z => exact ⟨.dec z.neg, rfl, by rw [← decVal_neg]; exact .dec _, rfl⟩
  | dbl _ => cases hk
  | flt _ => cases hk

/-- **C23**, the two exceptions stay what they are. -/
theorem C23_extremes (env : Env) :
    evaluateArith env j!"-a" [(['a'], .int (-2147483648))] = .success (.int (-2147483648)) ∧
    evaluateArith env j!"-a" [(['a'], .long (-9223372036854775808))] = .success (.long (-9223372036854775808)) :=
  ⟨by krfl, by krfl⟩

theorem negate_negate {a : Value} (hk : Negatable a) : (Arith.negate a >>= Arith.negate) = .ok a := by
  cases hk with
  | @int n hn =>
    show Except.ok (Value.int (wrap32 (-(wrap32 (-n))))) = _
    congr 2
    unfold InInt32 at hn; unfold wrap32; omega
  | @long n hn =>
    show Except.ok (Value.long (wrap64 (-(wrap64 (-n))))) = _
    congr 2
    unfold InInt64 at hn; unfold wrap64; omega
  | dec z =>
    show Except.ok (Value.dec z.neg.neg) = _
    simp [Dec.neg]

/-- **C23**, twice gives back the very same value, extremes included. -/
theorem C23_twice {e : Arith} {s : JStr} (h : WritesArith s (.neg (.group (.neg e)))) {env : Env} {d : Data}
    {a : Value} (he : e.value env d = .ok a) (hk : Negatable a) : evaluateArith env s d = .success a := by
  rw [h.eval env d, Arith.value, Arith.value, Arith.value, he, ok_bind, negate_negate hk]; rfl

/-- A `Double` or `Float` cannot be negated. -/
theorem C23_double (env : Env) :
    evaluateArith env j!"-a" [(['a'], .dbl j!"1.5")] = .failure .classCast := by krfl

example (env : Env) (z : Dec) : ∃ v, evaluateArith env j!"-a" [(['a'], .dec z)] = .success v ∧ Num v (-decVal z) ∧
    getDataType v = .decimal :=
  C23_neg (e := .field ['a']) (writesArith_of (by krfl)) (by rfl) (.dec z) (.dec z) (by simp) (by simp)

example (env : Env) (n : ℤ) (hn : InInt32 n) : evaluateArith env j!"-(-a)" [(['a'], .int n)] = .success (.int n) :=
  C23_twice (e := .field ['a']) (writesArith_of (by krfl)) (by rfl) (.int hn)

/-! ## C24 Powers -/

/-- **C24.** If `Math.pow` is exact where it is documented to be, powers of `Integer`s that fit 32 bits are exact
`Integer`s, and up to 2^53 the result denotes the exact power. -/
theorem C24_power {l r : Arith} {s : JStr} (h : WritesArith s (.op .exp l r)) {env : Env} (hp : ExactPow env)
    {d : Data} {m n : ℤ} (hl : l.value env d = .ok (.int m)) (hr : r.value env d = .ok (.int n)) (hm : InInt32 m)
    (hn : InInt32 n) (h0 : 0 ≤ n) :
    (InInt32 (m ^ n.toNat) → evaluateArith env s d = .success (.int (m ^ n.toNat))) ∧
    (|m ^ n.toNat| ≤ 2 ^ 53 → ∃ v, evaluateArith env s d = .success v ∧ Num v ((m : ℚ) ^ n.toNat)) := by
  rw [op_text h hl hr, apply_exp_whole env (.int hm) (.int hn)]
  constructor
  · intro h32
    obtain ⟨k, e, h1, h2⟩ := hp m n hm hn h0 (by
      unfold InInt32 at h32
      rw [abs_le]; constructor <;> norm_num <;> omega)
    rw [h1, castDouble_whole (n := m ^ n.toNat) (by rw [h2]; push_cast; rfl) h32]; rfl
  · intro h53
    obtain ⟨k, e, h1, h2⟩ := hp m n hm hn h0 h53
    obtain ⟨v, h3, h4⟩ := castDouble_num k e
    exact ⟨v, by rw [h1, h3]; rfl, by rw [← h2]; exact h4⟩

/-- A world in which powers are exact. -/
def exactEnv : Env := ⟨⟨2024, 1, 1⟩, fun m n => .fin (m ^ n.toNat) 0, fun _ _ => .nan⟩

theorem exactEnv_exact : ExactPow exactEnv := by
  intro m n _ _ _ _
  exact ⟨m ^ n.toNat, 0, rfl, by simp⟩

example : evaluateArith exactEnv j!"a ^ 10" [(['a'], .int (-3))] = .success (.int 59049) :=
  (C24_power (l := .field ['a']) (r := .lit (.int j!"10")) (writesArith_of (by krfl)) exactEnv_exact
    (m := -3) (n := 10) (by rfl) (by krfl) (by decide) (by decide) (by decide)).1 (by decide)

/-! ## C25 Text -/

/-- **C25.** `+` with a text operand concatenates the texts, left first. -/
theorem C25_concat {l r : Arith} {s : JStr} (h : WritesArith s (.op .add l r)) {env : Env} {d : Data} {a b : Value}
    (hl : l.value env d = .ok a) (hr : r.value env d = .ok b) (ha : Addable a) (hb : Addable b)
    (ht : Textual a ∨ Textual b) : evaluateArith env s d = .success (.str (a.text ++ b.text)) := by
  rw [op_text h hl hr, apply_text env ha hb ht]; rfl

/-- **C25**, associativity: as long as both partial results are texts and do not read as dates. -/
theorem C25_associates {l m r : Arith} {s s' : JStr} (h : WritesArith s (.op .add (.group (.op .add l m)) r))
    (h' : WritesArith s' (.op .add l (.group (.op .add m r)))) {env : Env} {d : Data} {a b c : Value}
    (hl : l.value env d = .ok a) (hm : m.value env d = .ok b) (hr : r.value env d = .ok c) (ha : Addable a)
    (hb : Addable b) (hc : Addable c) (hab : Textual a ∨ Textual b) (hbc : Textual b ∨ Textual c)
    (h1 : Ordinary (a.text ++ b.text)) (h2 : Ordinary (b.text ++ c.text)) :
    evaluateArith env s d = evaluateArith env s' d ∧
    evaluateArith env s d = .success (.str (a.text ++ b.text ++ c.text)) := by
  have e1 : (Arith.group (.op .add l m)).value env d = .ok (.str (a.text ++ b.text)) := by
    rw [Arith.value, Arith.value, hl, ok_bind, hm, ok_bind, apply_text env ha hb hab]
  have e2 : (Arith.group (.op .add m r)).value env d = .ok (.str (b.text ++ c.text)) := by
    rw [Arith.value, Arith.value, hm, ok_bind, hr, ok_bind, apply_text env hb hc hbc]
  have f1 := C25_concat h e1 hr (.inl (.str h1)) hc (.inl (.str h1))
  have f2 := C25_concat h' hl e2 ha (.inl (.str h2)) (.inr (.str h2))
  rw [f1, f2]
  simp [Value.text]

/-- A partial result that reads as a date is not a text any more. -/
theorem C25_date_glitch (env : Env) (d : Data) :
    evaluateArith env j!"('2023-01-0' + '5') + 'x'" d = .failure .invalidDataType ∧
    evaluateArith env j!"'2023-01-0' + ('5' + 'x')" d = .success (.str j!"2023-01-05x") := ⟨by krfl, by krfl⟩

example (env : Env) (n : ℤ) (hn : InInt32 n) :
    evaluateArith env j!"'id' + a" [(['a'], .int n)] = .success (.str (j!"id" ++ intStr n)) :=
  C25_concat (l := .lit (.str '\'' j!"id")) (r := .field ['a']) (writesArith_of (by krfl)) (a := .str j!"id") (by rfl)
    (b := .int n) (by rfl) (.inl (.str (ordinary_plain (not_dateLike_head (by decide) (by decide))))) (.inr ⟨_, .int hn⟩)
    (.inl (.str (ordinary_plain (not_dateLike_head (by decide) (by decide)))))

end BoolParser
