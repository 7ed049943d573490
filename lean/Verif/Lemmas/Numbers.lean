import Verif.Spec.Numbers
import Verif.Lemmas.Literals
import Verif.Lemmas.Scripts
import Verif.Lemmas.Unfold
import Mathlib.Tactic.Ring
import Mathlib.Tactic.FieldSimp
import Mathlib.Tactic.Linarith
import Mathlib.Tactic.Positivity
import Mathlib.Order.Compare
/-!
# Decimals as rationals
-/

namespace BoolParser
open Spec

/-! ### Numeric texts -/

theorem dropExpZeros_short {cs : JStr} (h : cs.length ≤ 10) : Dec.dropExpZeros cs = cs := by
  unfold Dec.dropExpZeros
  split
  · rw [if_neg]; simp at h; omega
  · rfl

theorem parseExpDigits_eq {es : JStr} (h : IsDigits es) (hl : es.length ≤ 9) :
    Dec.parseExpDigits es = some (digitsValue es : Int) := by
  unfold Dec.parseExpDigits
  rw [if_pos (show es ≠ [] ∧ List.all es isDigit = true from h), dropExpZeros_short (by omega)]
  simp only
  rw [if_neg (by omega), digitsValue_eq]

theorem parseExp_eq (g : Sign) {es : JStr} (h : IsDigits es) (hl : es.length ≤ 9) :
    Dec.parseExp (g.text ++ es) = some (g.factor * digitsValue es) := by
  have := parseExpDigits_eq h hl
  cases g with
  | minus => simp [Sign.text, Sign.factor, Dec.parseExp, this]
  | plus => simp [Sign.text, Sign.factor, Dec.parseExp, this]
  | none =>
    obtain ⟨hne, hd⟩ := h
    cases es with
    | nil => exact absurd rfl hne
    | cons c cs =>
      have hc : isDigit c = true := by simp at hd; exact hd.1
      have h1 : c ≠ '-' := digit_ne hc (by decide)
      have h2 : c ≠ '+' := digit_ne hc (by decide)
      simp only [Sign.text, List.nil_append, Sign.factor, one_mul]
      unfold Dec.parseExp
      split
      · rename_i e; simp at e; exact absurd e.1 h1
      · rename_i e; simp at e; exact absurd e.1 h2
      · exact this

/-- The parts of the unsigned parser. -/
theorem parseUnsigned_eq (neg : Bool) (ds : JStr) (fs : Option JStr) (r : JStr) (hd : IsDigits ds)
    (hf : ∀ f, fs = some f → IsDigits f) (hr : ∀ c, r.head? = some c → isDigit c = false ∧ c ≠ '.') :
    Dec.parseUnsigned neg (ds ++ (NumText.fracText fs ++ r)) =
      let m : Int := digitsValue (ds ++ fs.getD [])
      let u : Int := if neg then -m else m
      match r with
      | [] => some ⟨u, (fs.getD []).length⟩
      | c :: t =>
        if c = 'e' ∨ c = 'E' then
          match Dec.parseExp t with
          | some e =>
            let sc : Int := (fs.getD []).length - e
            if InInt32 e ∧ InInt32 sc then some ⟨u, sc⟩ else none
          | none => none
        else none := by
  obtain ⟨hne, hall⟩ := hd
  have hne' : ∀ x, ds ++ x ≠ [] := by
    intro x h; exact hne (List.append_eq_nil_iff.mp h).1
  cases fs with
  | none =>
    have hh : r.head?.all (fun c => !isDigit c) = true := by
      cases r with
      | nil => rfl
      | cons c t => simp [(hr c rfl).1]
    rw [show NumText.fracText none ++ r = r from rfl]
    unfold Dec.parseUnsigned
    simp only
    rw [takeWhile_append hall hh, dropWhile_append hall hh]
    cases r with
    | nil => simp [hne, digitsValue_eq]
    | cons c t =>
      have hc := (hr c rfl).2
      split
      · rename_i heq; simp at heq; exact absurd heq.1 hc
      · simp [hne, digitsValue_eq]
        cases Dec.parseExp t <;> rfl
  | some f =>
    obtain ⟨hfne, hfall⟩ := hf f rfl
    have hh : r.head?.all (fun c => !isDigit c) = true := by
      cases r with
      | nil => rfl
      | cons c t => simp [(hr c rfl).1]
    have hh2 : (NumText.fracText (some f) ++ r).head?.all (fun c => !isDigit c) = true := by
      simp [NumText.fracText]; decide
    unfold Dec.parseUnsigned
    simp only
    rw [takeWhile_append hall hh2, dropWhile_append hall hh2]
    simp only [NumText.fracText, List.cons_append]
    rw [takeWhile_append hfall hh, dropWhile_append hfall hh, if_neg (hne' f)]
    simp only [Option.getD_some, digitsValue_eq]
    cases r <;> rfl

/-- `new BigDecimal(text)` of a numeric text. -/
theorem NumText.parse {n : NumText} (h : n.Valid) :
    Dec.parse n.text = some ⟨n.sign.factor * digitsValue (n.whole ++ n.frac.getD []),
      (n.frac.getD []).length - n.exponent⟩ := by
  obtain ⟨sg, ds, fs, ex⟩ := n
  obtain ⟨hd, hf, he⟩ := h
  simp only at hd hf he
  have hr : ∀ c, (NumText.expText ex).head? = some c →
      isDigit c = false ∧ c ≠ '.' := by
    intro c hc
    cases ex with
    | none => cases hc
    | some e => simp [NumText.expText] at hc; subst hc; decide
  have key : ∀ neg : Bool, Dec.parseUnsigned neg (ds ++ (NumText.fracText fs ++
      NumText.expText ex)) =
      some ⟨(if neg then -1 else 1) * digitsValue (ds ++ fs.getD []),
        (fs.getD []).length - NumText.exponent ⟨sg, ds, fs, ex⟩⟩ := by
    intro neg
    rw [parseUnsigned_eq neg ds fs _ hd hf hr]
    have hs : ((if neg then -1 else 1) * (digitsValue (ds ++ fs.getD []) : Int)) =
        if neg then -(digitsValue (ds ++ fs.getD []) : Int) else digitsValue (ds ++ fs.getD []) := by
      cases neg <;> simp
    cases ex with
    | none => simp only [NumText.expText, NumText.exponent, hs, sub_zero]
    | some e =>
      obtain ⟨h1, h2, h3⟩ := he e rfl
      have hlt : digitsValue e.2 < 10 ^ 9 := by
        rw [digitsValue_eq]
        exact lt_of_lt_of_le (natOfDigits_lt h1.2) (Nat.pow_le_pow_right (by decide) h2)
      simp only [NumText.expText, parseExp_eq e.1 h1 h2, or_true, if_true, NumText.exponent, hs]
      rw [if_pos]
      unfold InInt32
      cases e.1 <;> simp [Sign.factor] <;> omega
  have plain : asciiDigits (NumText.text ⟨sg, ds, fs, ex⟩) = NumText.text ⟨sg, ds, fs, ex⟩ := by
    have hsg : ∀ x : Sign, asciiDigits x.text = x.text := by intro x; cases x <;> rfl
    unfold NumText.text
    simp only
    rw [asciiDigits_append, asciiDigits_append, asciiDigits_append, hsg, asciiDigits_digits hd.2]
    congr 2
    congr 1
    · cases fs with
      | none => rfl
      | some f =>
        show asciiDigits ('.' :: f) = '.' :: f
        rw [asciiDigits_cons (by decide), asciiDigits_digits (hf f rfl).2]
    · cases ex with
      | none => rfl
      | some e =>
        show asciiDigits ('E' :: (e.1.text ++ e.2)) = 'E' :: (e.1.text ++ e.2)
        rw [asciiDigits_cons (by decide), asciiDigits_append, hsg, asciiDigits_digits (he e rfl).1.2]
  unfold Dec.parse
  rw [plain]
  unfold NumText.text
  simp only
  cases sg with
  | minus => simp only [Sign.text, List.cons_append, List.nil_append, Dec.parseAscii, key]; rfl
  | plus => simp only [Sign.text, List.cons_append, List.nil_append, Dec.parseAscii, key]; rfl
  | none =>
    obtain ⟨hne, hall⟩ := hd
    cases ds with
    | nil => exact absurd rfl hne
    | cons c cs =>
      have hc : isDigit c = true := by simp at hall; exact hall.1
      have h1 : c ≠ '-' := digit_ne hc (by decide)
      have h2 : c ≠ '+' := digit_ne hc (by decide)
      simp only [Sign.text, List.nil_append, List.cons_append] at key ⊢
      unfold Dec.parseAscii
      split
      · rename_i e; simp at e; exact absurd e.1 h1
      · rename_i e; simp at e; exact absurd e.1 h2
      · rw [key]; rfl

/-- The usual text of a number stands for it. -/
theorem PlainNumeral.numeral {s : JStr} {x : ℚ} (h : PlainNumeral s x) : Numeral s x := by
  obtain ⟨n, hv, rfl, rfl⟩ := h
  refine numeral_iff.mpr ⟨_, NumText.parse hv, ?_⟩
  simp only [decVal, NumText.value, neg_sub]
  push_cast
  ring

/-! ### Comparison of decimals -/

theorem p10_cast (n : Nat) : ((Dec.p10 n : Int) : ℚ) = (10 : ℚ) ^ (n : Int) := by
  unfold Dec.p10
  push_cast
  rw [zpow_natCast]

theorem rescaled_val (d : Dec) {s : Int} (h : d.scale ≤ s) : ((d.rescaled s : Int) : ℚ) = decVal d * (10 : ℚ) ^ s := by
  unfold Dec.rescaled decVal
  push_cast
  rw [p10_cast, Int.toNat_of_nonneg (by omega), mul_assoc, ← zpow_add₀ (by norm_num)]
  congr 2; ring

theorem ten_zpow_pos (s : Int) : (0 : ℚ) < (10 : ℚ) ^ s := by positivity

theorem Dec.cmp_eq (a b : Dec) : Dec.cmp a b = _root_.cmp (decVal a) (decVal b) := by
  unfold Dec.cmp
  simp only
  rw [← cmp_eq_compare]
  have ha := rescaled_val a (le_max_left a.scale b.scale)
  have hb := rescaled_val b (le_max_right a.scale b.scale)
  have hp := ten_zpow_pos (max a.scale b.scale)
  generalize a.rescaled (max a.scale b.scale) = x at *
  generalize b.rescaled (max a.scale b.scale) = y at *
  have e : _root_.cmp x y = _root_.cmp (x : ℚ) (y : ℚ) := by
    unfold _root_.cmp cmpUsing
    simp
  rw [e, ha, hb]
  unfold _root_.cmp cmpUsing
  simp [mul_lt_mul_iff_left₀ hp]

/-- The test on the sign of `compareTo` decides the relation. -/
theorem test_cmp {α : Type} [LinearOrder α] (o : CmpOp) (x y : α) :
    o.test (_root_.cmp x y) = decide (Rel o x y) := by
  rcases lt_trichotomy x y with h | h | h
  · rw [(cmp_eq_lt_iff x y).mpr h]
    cases o <;> simp [CmpOp.test, Rel, h, h.le, h.ne, h.not_gt, h.not_ge]
  · rw [(cmp_eq_eq_iff x y).mpr h]
    cases o <;> simp [CmpOp.test, Rel, h]
  · rw [(cmp_eq_gt_iff x y).mpr h]
    cases o <;> simp [CmpOp.test, Rel, h, h.le, h.ne', h.not_gt, h.not_ge]

end BoolParser
