import Verif.Model.BigDecimal
import Verif.Util.KRfl
import Mathlib.Tactic.Ring
import Mathlib.Tactic.Linarith
import Mathlib.Tactic.IntervalCases
/-!
# Decimal digits: printing and parsing are inverse
-/

namespace BoolParser

theorem digitVal_digitChar {d : Nat} (h : d < 10) : digitVal (digitChar d) = d := by
  interval_cases d <;> krfl

theorem isDigit_digitChar {d : Nat} (h : d < 10) : isDigit (digitChar d) = true := by
  interval_cases d <;> rfl

theorem digitVal_lt {c : Char} (h : isDigit c = true) : digitVal c < 10 := by
  unfold isDigit at h; unfold digitVal
  simp at h; omega

theorem natOfDigits_append (acc : Nat) (a b : JStr) :
    natOfDigits acc (a ++ b) = natOfDigits (natOfDigits acc a) b := by
  induction a generalizing acc with
  | nil => rfl
  | cons c cs ih => simp [natOfDigits, ih]

theorem natOfDigits_acc (acc : Nat) (s : JStr) :
    natOfDigits acc s = acc * 10 ^ s.length + natOfDigits 0 s := by
  induction s generalizing acc with
  | nil => simp [natOfDigits]
  | cons c cs ih =>
    simp only [natOfDigits, List.length_cons]
    rw [ih, ih (0 * 10 + digitVal c)]
    ring

theorem natOfDigits_lt {s : JStr} (h : s.all isDigit = true) : natOfDigits 0 s < 10 ^ s.length := by
  induction s with
  | nil => simp [natOfDigits]
  | cons c cs ih =>
    simp only [List.all_cons, Bool.and_eq_true] at h
    have h1 := digitVal_lt h.1
    have h2 := ih h.2
    simp only [natOfDigits, List.length_cons]
    rw [natOfDigits_acc]
    have : (0 * 10 + digitVal c) * 10 ^ cs.length ≤ 9 * 10 ^ cs.length :=
      Nat.mul_le_mul_right _ (by omega)
    rw [pow_succ]; omega

theorem natStrGo_val (f n : Nat) (acc : JStr) (h : n < f) :
    natOfDigits 0 (natStrGo f n acc) = natOfDigits n acc := by
  induction f generalizing n acc with
  | zero => omega
  | succ f ih =>
    unfold natStrGo
    split
    · rename_i h'
      rw [natOfDigits, digitVal_digitChar h']
      simp only [Nat.zero_mul, Nat.zero_add]
    · rw [ih _ _ (by omega), natOfDigits, digitVal_digitChar (by omega)]
      have e : n / 10 * 10 + n % 10 = n := by omega
      rw [e]

theorem natStrGo_digits (f n : Nat) (acc : JStr) (h : acc.all isDigit = true) :
    (natStrGo f n acc).all isDigit = true := by
  induction f generalizing n acc with
  | zero => exact h
  | succ f ih =>
    unfold natStrGo
    split
    · rename_i h'
      simp [isDigit_digitChar h'] at *; exact h
    · apply ih
      simp only [List.all_cons, Bool.and_eq_true]
      exact ⟨isDigit_digitChar (by omega), h⟩

theorem natStrGo_ne_nil (f n : Nat) (acc : JStr) (h : 0 < f) : natStrGo f n acc ≠ [] := by
  induction f generalizing n acc with
  | zero => omega
  | succ f ih =>
    unfold natStrGo
    split
    · simp
    · rcases Nat.eq_zero_or_pos f with h0 | h0
      · subst h0; simp [natStrGo]
      · exact ih _ _ h0

@[simp] theorem natOfDigits_natStr (n : Nat) : natOfDigits 0 (natStr n) = n := by
  unfold natStr; rw [natStrGo_val _ _ _ (by omega)]; rfl

theorem natStr_digits (n : Nat) : (natStr n).all isDigit = true := natStrGo_digits _ _ _ rfl

theorem natStr_ne_nil (n : Nat) : natStr n ≠ [] := natStrGo_ne_nil _ _ _ (by omega)

/-- No leading zero, unless the number is zero. -/
theorem natStrGo_head (f n : Nat) (acc : JStr) (h : n < f) (hn : 0 < n) :
    ∃ c cs, natStrGo f n acc = c :: cs ∧ c ≠ '0' := by
  induction f generalizing n acc with
  | zero => omega
  | succ f ih =>
    unfold natStrGo
    split
    · rename_i h'
      refine ⟨digitChar n, acc, rfl, ?_⟩
      interval_cases n <;> decide
    · exact ih _ _ (by omega) (by omega)

theorem natStr_head {n : Nat} (hn : 0 < n) : ∃ c cs, natStr n = c :: cs ∧ c ≠ '0' :=
  natStrGo_head _ _ _ (by omega) hn

theorem all_takeWhile {p : Char → Bool} {s : JStr} (h : s.all p = true) : s.takeWhile p = s := by
  induction s with
  | nil => rfl
  | cons c cs ih =>
    simp only [List.all_cons, Bool.and_eq_true] at h
    simp [h.1, ih h.2]

theorem all_dropWhile {p : Char → Bool} {s : JStr} (h : s.all p = true) : s.dropWhile p = [] := by
  induction s with
  | nil => rfl
  | cons c cs ih =>
    simp only [List.all_cons, Bool.and_eq_true] at h
    simp [h.1, ih h.2]

/-- `takeWhile` stops exactly at the first character that fails. -/
theorem takeWhile_append {p : Char → Bool} {s r : JStr} (h : s.all p = true)
    (hr : r.head?.all (fun c => !p c) = true) : (s ++ r).takeWhile p = s := by
  induction s with
  | nil =>
    cases r with
    | nil => rfl
    | cons c cs => simp at hr; simp [hr]
  | cons c cs ih =>
    simp only [List.all_cons, Bool.and_eq_true] at h
    simp [h.1, ih h.2]

theorem dropWhile_append {p : Char → Bool} {s r : JStr} (h : s.all p = true)
    (hr : r.head?.all (fun c => !p c) = true) : (s ++ r).dropWhile p = r := by
  induction s with
  | nil =>
    cases r with
    | nil => rfl
    | cons c cs => simp at hr; simp [hr]
  | cons c cs ih =>
    simp only [List.all_cons, Bool.and_eq_true] at h
    simp [h.1, ih h.2]

theorem digit_ne {c d : Char} (h : isDigit c = true) (hd : isDigit d = false) : c ≠ d := by
  intro e; subst e; rw [h] at hd; cases hd

/-- Characters below the digits of other scripts are read as they are. -/
theorem asciiDigit_plain {c : Char} (h : c.toNat < 0x0660) : asciiDigit c = c := by
  unfold asciiDigit
  rw [if_pos h]

theorem asciiDigits_plain {s : JStr} (h : ∀ c ∈ s, c.toNat < 0x0660) : asciiDigits s = s := by
  unfold asciiDigits
  conv_rhs => rw [← List.map_id s]
  exact List.map_congr_left (fun c hc => asciiDigit_plain (h c hc))

theorem asciiDigits_append (a b : JStr) : asciiDigits (a ++ b) = asciiDigits a ++ asciiDigits b := List.map_append

theorem asciiDigits_cons {c : Char} (h : c.toNat < 0x0660) (s : JStr) :
    asciiDigits (c :: s) = c :: asciiDigits s := by
  show asciiDigit c :: asciiDigits s = _
  rw [asciiDigit_plain h]

theorem digit_plain {c : Char} (h : isDigit c = true) : c.toNat < 0x0660 := by
  unfold isDigit at h
  simp at h
  omega

theorem asciiDigits_digits {s : JStr} (h : s.all isDigit = true) : asciiDigits s = s :=
  asciiDigits_plain (fun c hc => digit_plain (List.all_eq_true.mp h c hc))

theorem Dec.parse_digits {s : JStr} (hs : s ≠ []) (h : s.all isDigit = true) :
    Dec.parse s = some ⟨natOfDigits 0 s, 0⟩ := by
  cases s with
  | nil => exact absurd rfl hs
  | cons c cs =>
    have hc : isDigit c = true := by simp at h; exact h.1
    have e : Dec.parse (c :: cs) = Dec.parseUnsigned false (c :: cs) := by
      unfold Dec.parse
      rw [asciiDigits_digits h]
      unfold Dec.parseAscii
      split
      · rename_i heq; injection heq with h1 _; subst h1; cases hc
      · rename_i heq; injection heq with h1 _; subst h1; cases hc
      · rfl
    rw [e]
    unfold Dec.parseUnsigned
    rw [all_takeWhile h, all_dropWhile h]
    simp

theorem Dec.parse_neg_digits {s : JStr} (hs : s ≠ []) (h : s.all isDigit = true) :
    Dec.parse ('-' :: s) = some ⟨-(natOfDigits 0 s : Int), 0⟩ := by
  unfold Dec.parse
  rw [asciiDigits_cons (by decide), asciiDigits_digits h]
  unfold Dec.parseAscii Dec.parseUnsigned
  simp only [all_takeWhile h, all_dropWhile h]
  simp [hs]

/-- Printing an integer and reading it as a `BigDecimal` gives the integer with scale 0. -/
theorem Dec.parse_intStr (n : Int) : Dec.parse (intStr n) = some ⟨n, 0⟩ := by
  unfold intStr
  split
  · rename_i h
    rw [Dec.parse_neg_digits (natStr_ne_nil _) (natStr_digits _), natOfDigits_natStr]
    congr 2; omega
  · rename_i h
    rw [Dec.parse_digits (natStr_ne_nil _) (natStr_digits _), natOfDigits_natStr]
    congr 2; omega

theorem parseSigned_digits {s : JStr} (hs : s ≠ []) (h : s.all isDigit = true) :
    parseSigned s = some (natOfDigits 0 s : Int) := by
  cases s with
  | nil => exact absurd rfl hs
  | cons c cs =>
    have hc : isDigit c = true := by simp at h; exact h.1
    unfold parseSigned
    split
    · rename_i heq; injection heq with h1 _; subst h1; cases hc
    · rename_i heq; injection heq with h1 _; subst h1; cases hc
    · rw [if_pos ⟨hs, h⟩]

/-! ### Integral decimals -/

@[simp] theorem Dec.p10_zero : Dec.p10 0 = 1 := by rfl

theorem Dec.p10_pos (n : Nat) : 0 < Dec.p10 n := by
  unfold Dec.p10; exact_mod_cast Nat.pos_of_ne_zero (by positivity)

@[simp] theorem Dec.isIntegral_scale0 (n : Int) : Dec.isIntegral ⟨n, 0⟩ = true := by
  simp [Dec.isIntegral]

@[simp] theorem Dec.trunc_scale0 (n : Int) : Dec.trunc ⟨n, 0⟩ = n := by
  simp [Dec.trunc]

theorem Dec.toInt64?_scale0 {n : Int} (h : InInt64 n) : Dec.toInt64? ⟨n, 0⟩ = some n := by
  simp [Dec.toInt64?, h]

theorem Dec.toInt32?_scale0 {n : Int} (h : InInt32 n) : Dec.toInt32? ⟨n, 0⟩ = some n := by
  simp [Dec.toInt32?, h]

/-! ### Wrap-around -/

theorem wrap32_of_in {n : Int} (h : InInt32 n) : wrap32 n = n := by
  unfold InInt32 at h; unfold wrap32; omega

theorem wrap64_of_in {n : Int} (h : InInt64 n) : wrap64 n = n := by
  unfold InInt64 at h; unfold wrap64; omega

theorem wrap32_in (n : Int) : InInt32 (wrap32 n) := by
  unfold InInt32 wrap32; omega

theorem wrap64_in (n : Int) : InInt64 (wrap64 n) := by
  unfold InInt64 wrap64; omega

theorem InInt32.to64 {n : Int} (h : InInt32 n) : InInt64 n := by
  unfold InInt32 at h; unfold InInt64; omega

end BoolParser
