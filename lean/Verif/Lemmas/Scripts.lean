import Verif.Spec.Numbers
import Verif.Lemmas.Literals
import Mathlib.Tactic.Ring
/-!
# Which texts `BigDecimal` reads as numbers
-/

namespace BoolParser
open Spec

/-! ### Digits of all scripts -/

theorem zeroDigits_eq : zeroDigits.map Char.toNat = 48 :: digitZeros := by decide +kernel

theorem digitChar_toNat {n : ℕ} (h : n < 10) : (digitChar n).toNat = 48 + n := by
  unfold digitChar
  interval_cases n <;> rfl

theorem digitZeros_low : ∀ z ∈ digitZeros, 0x0660 ≤ z := by decide +kernel

/-- The blocks of digits do not overlap. -/
theorem digitZeros_apart : ∀ z ∈ digitZeros, ∀ y ∈ digitZeros, z = y ∨ z + 10 ≤ y ∨ y + 10 ≤ z := by decide +kernel

theorem asciiDigit_high {c : Char} {z : ℕ} (hz : z ∈ digitZeros) {n : ℕ} (hn : n < 10) (h : c.toNat = z + n) :
    asciiDigit c = digitChar n := by
  have hlow := digitZeros_low z hz
  unfold asciiDigit
  rw [if_neg (by omega)]
  cases hf : digitZeros.find? (fun z => decide (z ≤ c.toNat) && decide (c.toNat < z + 10)) with
  | none =>
    have := List.find?_eq_none.mp hf z hz
    simp at this; omega
  | some y =>
    have h1 := List.find?_some hf
    have h2 := List.mem_of_find?_eq_some hf
    simp at h1
    rcases digitZeros_apart z hz y h2 with e | e | e
    · subst e
      show digitChar (c.toNat - z) = _
      congr 1; omega
    · omega
    · omega

theorem toNat_inj {c d : Char} (h : c.toNat = d.toNat) : c = d := Char.ext (UInt32.toNat_inj.mp h)

theorem digitOf_ascii {c : Char} {n : ℕ} (h : DigitOf c n) : asciiDigit c = digitChar n := by
  obtain ⟨hn, z, hz, e⟩ := h
  have hm : z.toNat ∈ zeroDigits.map Char.toNat := List.mem_map_of_mem hz
  rw [zeroDigits_eq] at hm
  rcases List.mem_cons.mp hm with h0 | h0
  · rw [h0] at e
    rw [asciiDigit_plain (by omega)]
    apply toNat_inj
    rw [digitChar_toNat hn, e]
  · exact asciiDigit_high h0 hn e

/-- A character is read as a digit exactly if it is one. -/
theorem ascii_digitOf {c : Char} (h : isDigit (asciiDigit c) = true) : DigitOf c (digitVal (asciiDigit c)) := by
  have mem : ∀ k ∈ 48 :: digitZeros, ∃ z ∈ zeroDigits, z.toNat = k := by
    intro k hk
    rw [← zeroDigits_eq] at hk
    obtain ⟨z, hz, e⟩ := List.mem_map.mp hk
    exact ⟨z, hz, e⟩
  by_cases hl : c.toNat < 0x0660
  · rw [asciiDigit_plain hl] at h ⊢
    have h' := h
    unfold isDigit at h'
    simp at h'
    obtain ⟨z, hz, e⟩ := mem 48 (by simp)
    refine ⟨?_, z, hz, ?_⟩ <;> unfold digitVal <;> omega
  · unfold asciiDigit at h ⊢
    rw [if_neg hl] at h ⊢
    cases hf : digitZeros.find? (fun z => decide (z ≤ c.toNat) && decide (c.toNat < z + 10)) with
    | none =>
      rw [hf] at h
      simp only at h
      unfold isDigit at h
      simp at h; omega
    | some y =>
      have h1 := List.find?_some hf
      have h2 := List.mem_of_find?_eq_some hf
      simp at h1
      obtain ⟨z, hz, e⟩ := mem y (by simp [h2])
      simp only
      rw [digitVal_digitChar (by omega)]
      exact ⟨by omega, z, hz, by omega⟩

/-- What is read as another character than a digit is that character. -/
theorem ascii_other {c d : Char} (h : asciiDigit c = d) (hd : isDigit d = false) : c = d := by
  by_cases hl : c.toNat < 0x0660
  · rw [asciiDigit_plain hl] at h; exact h
  · unfold asciiDigit at h
    rw [if_neg hl] at h
    cases hf : digitZeros.find? (fun z => decide (z ≤ c.toNat) && decide (c.toNat < z + 10)) with
    | none => rw [hf] at h; exact h
    | some y =>
      rw [hf] at h
      have h1 := List.find?_some hf
      simp at h1
      simp only at h
      rw [← h, isDigit_digitChar] at hd
      · cases hd
      · omega

theorem digitsOf_ascii {s : JStr} {ds : List ℕ} (h : DigitsOf s ds) :
    (asciiDigits s).all isDigit = true ∧ s.length = ds.length ∧
      ∀ a, natOfDigits a (asciiDigits s) = ds.foldl (fun a n => a * 10 + n) a := by
  unfold DigitsOf at h
  induction h with
  | nil => exact ⟨rfl, rfl, fun _ => rfl⟩
  | @cons c n s ds h _ ih =>
    obtain ⟨h1, h2, h3⟩ := ih
    have e := digitOf_ascii h
    have hd : isDigit (digitChar n) = true := isDigit_digitChar h.1
    refine ⟨?_, by simp [h2], ?_⟩
    · show (asciiDigit c :: asciiDigits s).all isDigit = true
      rw [List.all_cons, e, hd, h1]; rfl
    · intro a
      show natOfDigits a (asciiDigit c :: asciiDigits s) = _
      rw [natOfDigits, h3, e, digitVal_digitChar h.1]; rfl

theorem ascii_digitsOf {s : JStr} (h : (asciiDigits s).all isDigit = true) : DigitsOf s ((asciiDigits s).map digitVal) := by
  induction s with
  | nil => exact .nil
  | cons c cs ih =>
    change (asciiDigit c :: asciiDigits cs).all isDigit = true at h
    rw [List.all_cons, Bool.and_eq_true] at h
    exact .cons (ascii_digitOf h.1) (ih h.2)

/-! ### Exponents -/

theorem natOfDigits_ge (s : JStr) : ∀ a, a * 10 ^ s.length ≤ natOfDigits a s := by
  induction s with
  | nil => intro a; simp [natOfDigits]
  | cons c cs ih =>
    intro a
    rw [natOfDigits, List.length_cons, pow_succ]
    refine le_trans ?_ (ih _)
    have : a * 10 ^ cs.length * 10 ≤ (a * 10 + digitVal c) * 10 ^ cs.length := by
      rw [add_mul]
      have : a * 10 ^ cs.length * 10 = a * 10 * 10 ^ cs.length := by ring
      omega
    rw [← mul_assoc]; exact this

theorem zero_front (cs : JStr) : natOfDigits 0 ('0' :: cs) = natOfDigits 0 cs := by
  rw [natOfDigits]
  congr 1
  unfold digitVal
  rfl

theorem dropExpZeros_value (cs : JStr) : natOfDigits 0 (Dec.dropExpZeros cs) = natOfDigits 0 cs := by
  induction cs with
  | nil => rfl
  | cons c cs ih =>
    unfold Dec.dropExpZeros
    split
    · rename_i c' cs' heq
      injection heq with h1 h2
      subst h1 h2
      split
      · rw [ih, zero_front]
      · rfl
    · rfl

theorem digit_pos {c : Char} (h : isDigit c = true) (h0 : c ≠ '0') : 1 ≤ digitVal c := by
  unfold isDigit at h
  simp at h
  unfold digitVal
  have : c.toNat ≠ 48 := fun e => h0 (toNat_inj e)
  omega

theorem dropExpZeros_long {cs : JStr} (hd : cs.all isDigit = true) (h : 10 < (Dec.dropExpZeros cs).length) :
    10 ^ 10 ≤ natOfDigits 0 cs := by
  induction cs with
  | nil => simp [Dec.dropExpZeros] at h
  | cons c cs ih =>
    rw [List.all_cons, Bool.and_eq_true] at hd
    unfold Dec.dropExpZeros at h
    split at h
    · rename_i c' cs' heq
      injection heq with h1 h2
      subst h1 h2
      split at h
      · rw [zero_front]; exact ih hd.2 h
      · rename_i hn; simp at h; omega
    · rename_i hne
      have h0 : c ≠ '0' := fun e => hne cs (by rw [e])
      have h1 := digit_pos hd.1 h0
      have h2 := natOfDigits_ge cs (0 * 10 + digitVal c)
      rw [natOfDigits]
      refine le_trans ?_ h2
      have h3 : 10 ^ 10 ≤ 10 ^ cs.length := Nat.pow_le_pow_right (by decide) (by simp at h; omega)
      calc 10 ^ 10 ≤ 10 ^ cs.length := h3
        _ ≤ (0 * 10 + digitVal c) * 10 ^ cs.length := Nat.le_mul_of_pos_left _ (by omega)

theorem parseExpDigits_some {cs : JStr} (h : IsDigits cs) (hv : natOfDigits 0 cs < 10 ^ 10) :
    Dec.parseExpDigits cs = some (natOfDigits 0 cs : Int) := by
  unfold Dec.parseExpDigits
  rw [if_pos (show cs ≠ [] ∧ List.all cs isDigit = true from h)]
  simp only
  rw [if_neg, dropExpZeros_value]
  intro hl
  have := dropExpZeros_long h.2 hl
  omega

theorem parseExpDigits_inv {cs : JStr} {n : Int} (h : Dec.parseExpDigits cs = some n) :
    IsDigits cs ∧ n = natOfDigits 0 cs := by
  unfold Dec.parseExpDigits at h
  split at h
  · rename_i hd
    simp only at h
    split at h
    · cases h
    · injection h with h
      rw [dropExpZeros_value] at h
      exact ⟨hd, h.symm⟩
  · cases h

theorem parseExp_some (g : Sign) {cs : JStr} (h : IsDigits cs) (hv : natOfDigits 0 cs < 10 ^ 10) :
    Dec.parseExp (g.text ++ cs) = some (g.factor * natOfDigits 0 cs) := by
  have := parseExpDigits_some h hv
  cases g with
  | minus => simp [Sign.text, Sign.factor, Dec.parseExp, this]
  | plus => simp [Sign.text, Sign.factor, Dec.parseExp, this]
  | none =>
    obtain ⟨c, cs, rfl, hc⟩ := digits_head h
    have h1 : c ≠ '-' := digit_ne hc (by decide)
    have h2 : c ≠ '+' := digit_ne hc (by decide)
    simp only [Sign.text, List.nil_append, Sign.factor, one_mul]
    unfold Dec.parseExp
    split
    · rename_i e; simp at e; exact absurd e.1 h1
    · rename_i e; simp at e; exact absurd e.1 h2
    · exact this

theorem parseExp_inv {t : JStr} {n : Int} (h : Dec.parseExp t = some n) :
    ∃ (g : Sign) (cs : JStr), t = g.text ++ cs ∧ IsDigits cs ∧ n = g.factor * natOfDigits 0 cs := by
  unfold Dec.parseExp at h
  split at h
  · rename_i cs
    cases hp : Dec.parseExpDigits cs with
    | none => rw [hp] at h; cases h
    | some m =>
      rw [hp] at h
      obtain ⟨h1, rfl⟩ := parseExpDigits_inv hp
      injection h with h
      exact ⟨.minus, cs, rfl, h1, by rw [← h]; simp [Sign.factor]⟩
  · rename_i cs
    obtain ⟨h1, rfl⟩ := parseExpDigits_inv h
    exact ⟨.plus, cs, rfl, h1, by simp [Sign.factor]⟩
  · obtain ⟨h1, rfl⟩ := parseExpDigits_inv h
    exact ⟨.none, _, rfl, h1, by simp [Sign.factor]⟩

/-! ### The parser -/

/-- The parts of a text after the sign. -/
theorem parseUnsigned_parts (neg : Bool) {w f fd e : JStr} (hw : w.all isDigit = true)
    (hf : f = [] ∧ fd = [] ∨ f = '.' :: fd ∧ fd.all isDigit = true)
    (he : ∀ c, e.head? = some c → isDigit c = false ∧ (f = [] → c ≠ '.')) :
    Dec.parseUnsigned neg (w ++ (f ++ e)) =
      if w ++ fd = [] then none else
      let u : Int := if neg then -(natOfDigits 0 (w ++ fd) : Int) else natOfDigits 0 (w ++ fd)
      match e with
      | [] => some ⟨u, fd.length⟩
      | c :: t =>
        if c = 'e' ∨ c = 'E' then
          match Dec.parseExp t with
          | some k =>
            let sc : Int := fd.length - k
            if InInt32 k ∧ InInt32 sc then some ⟨u, sc⟩ else none
          | none => none
        else none := by
  have hh : e.head?.all (fun c => !isDigit c) = true := by
    cases e with
    | nil => rfl
    | cons c t => simp [(he c rfl).1]
  unfold Dec.parseUnsigned
  rcases hf with ⟨rfl, rfl⟩ | ⟨rfl, hfd⟩
  · simp only [List.nil_append, List.append_nil]
    rw [takeWhile_append hw hh, dropWhile_append hw hh]
    cases e with
    | nil => simp
    | cons c t =>
      have hc := (he c rfl).2 rfl
      split
      · rename_i heq; simp at heq; exact absurd heq.1 hc
      · simp
        cases Dec.parseExp t <;> rfl
  · have hh2 : (('.' :: fd) ++ e).head?.all (fun c => !isDigit c) = true := by rfl
    rw [takeWhile_append hw hh2, dropWhile_append hw hh2]
    simp only [List.cons_append]
    rw [takeWhile_append hfd hh, dropWhile_append hfd hh]
    cases e <;> rfl

theorem head_not_sign {w f fd e : JStr} (hw : w.all isDigit = true)
    (hf : f = [] ∧ fd = [] ∨ f = '.' :: fd ∧ fd.all isDigit = true) (hne : w ++ fd ≠ []) :
    Dec.parseAscii (w ++ (f ++ e)) = Dec.parseUnsigned false (w ++ (f ++ e)) := by
  have key : ∀ c t, w ++ (f ++ e) = c :: t → c ≠ '-' ∧ c ≠ '+' := by
    intro c t h
    cases w with
    | cons d ds =>
      simp at hw h
      rw [← h.1]
      exact ⟨digit_ne hw.1 (by decide), digit_ne hw.1 (by decide)⟩
    | nil =>
      rcases hf with ⟨rfl, rfl⟩ | ⟨rfl, _⟩
      · exact absurd rfl hne
      · simp at h; rw [← h.1]; decide
  unfold Dec.parseAscii
  split
  · rename_i heq; exact absurd rfl (key _ _ heq).1
  · rename_i heq; exact absurd rfl (key _ _ heq).2
  · rfl

theorem sign_ascii (g : Sign) : asciiDigits g.text = g.text := by cases g <;> rfl

theorem digitsOf_length {s : JStr} : (asciiDigits s).length = s.length := by simp [asciiDigits]

/-- A text that stands for a number is read as that number. -/
theorem Numeral.parse {s : JStr} {x : ℚ} (h : Numeral s x) : ∃ d, Dec.parse s = some d ∧ decVal d = x := by
  cases h with
  | @mk g w f e ws fs k hw hf hne he =>
    obtain ⟨w1, w2, w3⟩ := digitsOf_ascii hw
    obtain ⟨fd, f1, f2, f3⟩ : ∃ fd, (asciiDigits f = [] ∧ fd = [] ∨ asciiDigits f = '.' :: fd ∧ fd.all isDigit = true) ∧
        fd.length = fs.length ∧ ∀ a, natOfDigits a fd = fs.foldl (fun a n => a * 10 + n) a := by
      cases hf with
      | none => exact ⟨[], .inl ⟨rfl, rfl⟩, rfl, fun _ => rfl⟩
      | @some t ds h =>
        obtain ⟨h1, h2, h3⟩ := digitsOf_ascii h
        exact ⟨asciiDigits t, .inr ⟨asciiDigits_cons (by decide) _, h1⟩, by rw [digitsOf_length, h2], h3⟩
    have hm : natOfDigits 0 (asciiDigits w ++ fd) = numberOf (ws ++ fs) := by
      rw [natOfDigits_append, w3, f3]
      unfold numberOf
      rw [List.foldl_append]
    have hne' : asciiDigits w ++ fd ≠ [] := by
      intro e
      apply hne
      have := congrArg List.length e
      rw [List.length_append, digitsOf_length, w2, f2, ← List.length_append] at this
      exact List.length_eq_zero_iff.mp this
    have key : ∀ neg : Bool, Dec.parseUnsigned neg (asciiDigits w ++ (asciiDigits f ++ asciiDigits e)) =
        some ⟨if neg then -(numberOf (ws ++ fs) : Int) else numberOf (ws ++ fs), fs.length - k⟩ := by
      intro neg
      cases he with
      | none =>
        rw [parseUnsigned_parts neg w1 f1 (by intro c hc; cases hc), if_neg hne', hm, f2, sub_zero]; rfl
      | @some c g s ds hc hs hd h1 h2 =>
        obtain ⟨d1, d2, d3⟩ := digitsOf_ascii hd
        have ee : asciiDigits (c :: (g.text ++ s)) = c :: (g.text ++ asciiDigits s) := by
          rw [asciiDigits_cons (by rcases hc with rfl | rfl <;> decide), asciiDigits_append, sign_ascii]
        have hv : natOfDigits 0 (asciiDigits s) = numberOf ds := d3 0
        have hdig : IsDigits (asciiDigits s) := ⟨by
          intro e
          have := congrArg List.length e
          rw [digitsOf_length] at this
          exact hs (List.length_eq_zero_iff.mp this), d1⟩
        have hlt : natOfDigits 0 (asciiDigits s) < 10 ^ 10 := by
          rw [hv]
          unfold InInt32 at h1
          cases g <;> simp [Sign.factor] at h1 <;> omega
        rw [ee, parseUnsigned_parts neg w1 f1 (by
          intro c' hc'
          simp at hc'
          subst hc'
          rcases hc with rfl | rfl <;> exact ⟨rfl, fun _ => by decide⟩), if_neg hne', hm, f2]
        simp only
        rw [if_pos hc, parseExp_some g hdig hlt, hv]
        simp only
        rw [if_pos ⟨h1, h2⟩]
    have fin : ∀ n : Int, n = g.factor * (numberOf (ws ++ fs) : Int) → decVal ⟨n, fs.length - k⟩ =
        g.factor * (numberOf (ws ++ fs) : ℚ) * (10 : ℚ) ^ (k - (fs.length : ℤ)) := by
      rintro n rfl
      simp only [decVal, neg_sub]
      push_cast
      rfl
    unfold Dec.parse
    rw [asciiDigits_append, asciiDigits_append, asciiDigits_append, sign_ascii]
    cases g with
    | minus => exact ⟨_, key true, fin _ (by simp [Sign.factor])⟩
    | plus => exact ⟨_, key false, fin _ (by simp [Sign.factor])⟩
    | none =>
      refine ⟨_, ?_, fin _ (by simp [Sign.factor]; rfl)⟩
      show Dec.parseAscii (asciiDigits w ++ _) = _
      rw [head_not_sign w1 f1 hne', key false]; rfl

theorem asciiDigits_split {s a b : JStr} (h : asciiDigits s = a ++ b) :
    ∃ x y, s = x ++ y ∧ asciiDigits x = a ∧ asciiDigits y = b := by
  obtain ⟨x, y, h1, h2, h3⟩ := List.map_eq_append_iff.mp h
  exact ⟨x, y, h1, h2, h3⟩

theorem asciiDigits_front {s b : JStr} {c : Char} (hc : isDigit c = false) (h : asciiDigits s = c :: b) :
    ∃ y, s = c :: y ∧ asciiDigits y = b := by
  cases s with
  | nil => cases h
  | cons d y =>
    change asciiDigit d :: asciiDigits y = _ at h
    injection h with h1 h2
    exact ⟨y, by rw [ascii_other h1 hc], h2⟩

theorem asciiDigits_nil {s : JStr} (h : asciiDigits s = []) : s = [] := by
  cases s with
  | nil => rfl
  | cons d y => cases h

theorem digits_number {a : JStr} : natOfDigits 0 a = numberOf (a.map digitVal) := by
  have : ∀ k, natOfDigits k a = (a.map digitVal).foldl (fun a n => a * 10 + n) k := by
    induction a with
    | nil => intro k; rfl
    | cons c cs ih => intro k; rw [natOfDigits, ih]; rfl
  exact this 0

/-- Signs that make the number negative. -/
def negative : Sign → Bool
  | .minus => true
  | _ => false

/-- What the parser reads after a sign stands for a number. -/
theorem parseUnsigned_numeral (g : Sign) {s : JStr} {d : Dec} (h : Dec.parseUnsigned (negative g) (asciiDigits s) = some d) :
    Numeral (g.text ++ s) (decVal d) := by
  obtain ⟨w, r, rfl, hw1, hr⟩ := asciiDigits_split (List.takeWhile_append_dropWhile (p := isDigit) (l := asciiDigits s)).symm
  have hw : (asciiDigits w).all isDigit = true := by rw [hw1]; exact List.all_takeWhile
  have head : ∀ (q : JStr) c, (q.dropWhile isDigit).head? = some c → isDigit c = false := by
    intro q c hc
    have := List.head?_dropWhile_not isDigit q
    rw [hc] at this
    simpa using this
  have hws := ascii_digitsOf hw
  have hrd : ∀ c, (asciiDigits r).head? = some c → isDigit c = false := by rw [hr]; exact head _
  clear hr hw1
  obtain ⟨f, e, fs, rfl, hf, hlen, hfa, hhead⟩ : ∃ (f e : JStr) (fs : List ℕ), r = f ++ e ∧ FractionText f fs ∧
      (∃ fd, fs = fd.map digitVal ∧ (asciiDigits f = [] ∧ fd = [] ∨ asciiDigits f = '.' :: fd ∧ fd.all isDigit = true)) ∧ True ∧
      ∀ c, (asciiDigits e).head? = some c → isDigit c = false ∧ (asciiDigits f = [] → c ≠ '.') := by
    by_cases hp : ∃ q, asciiDigits r = '.' :: q
    · obtain ⟨q, hq⟩ := hp
      obtain ⟨y, rfl, hy⟩ := asciiDigits_front (by decide) hq
      obtain ⟨f, e, rfl, h1, h2⟩ := asciiDigits_split (List.takeWhile_append_dropWhile (p := isDigit) (l := asciiDigits y)).symm
      have hd : (asciiDigits f).all isDigit = true := by rw [h1]; exact List.all_takeWhile
      refine ⟨'.' :: f, e, _, rfl, .some (ascii_digitsOf hd), ⟨asciiDigits f, rfl, .inr ⟨asciiDigits_cons (by decide) _, hd⟩⟩,
        trivial, ?_⟩
      intro c hc
      rw [h2] at hc
      refine ⟨head _ c hc, fun h => ?_⟩
      rw [asciiDigits_cons (by decide)] at h
      cases h
    · refine ⟨[], r, [], rfl, .none, ⟨[], rfl, .inl ⟨rfl, rfl⟩⟩, trivial, ?_⟩
      intro c hc
      refine ⟨hrd c hc, fun _ h => hp ?_⟩
      subst h
      cases hq : asciiDigits r with
      | nil => rw [hq] at hc; cases hc
      | cons c' q => rw [hq] at hc; simp at hc; exact ⟨q, by rw [hc]⟩
  obtain ⟨fd, hfs, hfd⟩ := hlen
  rw [asciiDigits_append, asciiDigits_append, parseUnsigned_parts _ hw hfd hhead] at h
  split at h
  · cases h
  · rename_i hne
    have hm : natOfDigits 0 (asciiDigits w ++ fd) = numberOf ((asciiDigits w).map digitVal ++ fs) := by
      rw [digits_number, List.map_append, hfs]
    have hne' : (asciiDigits w).map digitVal ++ fs ≠ [] := by
      rw [hfs, ← List.map_append]
      simpa using hne
    have hl : fd.length = fs.length := by rw [hfs, List.length_map]
    have fin : ∀ k : Int, ExponentText fs.length e k →
        (⟨if negative g = true then -(natOfDigits 0 (asciiDigits w ++ fd) : Int) else natOfDigits 0 (asciiDigits w ++ fd),
          fd.length - k⟩ : Dec) = d → Numeral (g.text ++ (w ++ (f ++ e))) (decVal d) := by
      intro k hk hd
      have := Numeral.mk g hws hf hne' hk
      have hx : decVal d = g.factor * (numberOf ((asciiDigits w).map digitVal ++ fs) : ℚ) * (10 : ℚ) ^ (k - (fs.length : ℤ)) := by
        rw [← hd, hm, hl]
        cases g <;> simp [decVal, Sign.factor, negative]
      rw [hx]; exact this
    generalize hae : asciiDigits e = ae at h
    cases ae with
    | nil =>
      cases asciiDigits_nil hae
      injection h with h
      exact fin 0 .none (by rw [sub_zero]; exact h)
    | cons c t =>
      simp only at h
      split at h
      · rename_i hc
        obtain ⟨y, rfl, hy⟩ := asciiDigits_front (by rcases hc with rfl | rfl <;> decide) hae
        cases hk : Dec.parseExp t with
        | none => rw [hk] at h; cases h
        | some k =>
          rw [hk] at h
          simp only at h
          split at h
          · rename_i hi
            injection h with h
            obtain ⟨g', cs, rfl, hcs, rfl⟩ := parseExp_inv hk
            obtain ⟨a, b, rfl, ha, hb⟩ := asciiDigits_split hy
            have ha' : a = g'.text := by
              cases g' with
              | none => exact asciiDigits_nil ha
              | plus =>
                obtain ⟨y', rfl, hy'⟩ := asciiDigits_front (c := '+') (by decide) ha
                rw [asciiDigits_nil hy']; rfl
              | minus =>
                obtain ⟨y', rfl, hy'⟩ := asciiDigits_front (c := '-') (by decide) ha
                rw [asciiDigits_nil hy']; rfl
            subst ha'
            have hbd := ascii_digitsOf (s := b) (by rw [hb]; exact hcs.2)
            have hn : natOfDigits 0 cs = numberOf ((asciiDigits b).map digitVal) := by rw [hb]; exact digits_number
            rw [hn] at hi h
            rw [hl] at hi
            exact fin _ (.some g' hc (by rintro rfl; exact hcs.1 hb.symm) hbd hi.1 hi.2) h
          · cases h
      · cases h

/-- The texts that stand for a number are the texts `BigDecimal` reads, with the same number. -/
theorem numeral_iff {s : JStr} {x : ℚ} : Numeral s x ↔ ∃ d, Dec.parse s = some d ∧ decVal d = x := by
  refine ⟨Numeral.parse, ?_⟩
  rintro ⟨d, h, rfl⟩
  unfold Dec.parse Dec.parseAscii at h
  split at h
  · rename_i cs heq
    obtain ⟨y, rfl, rfl⟩ := asciiDigits_front (by decide) heq
    exact parseUnsigned_numeral .minus h
  · rename_i cs heq
    obtain ⟨y, rfl, rfl⟩ := asciiDigits_front (by decide) heq
    exact parseUnsigned_numeral .plus h
  · exact parseUnsigned_numeral .none h

theorem not_numeral {s : JStr} (h : ∀ x, ¬ Numeral s x) : Dec.parse s = none := by
  cases hp : Dec.parse s with
  | none => rfl
  | some d => exact absurd (numeral_iff.mpr ⟨d, hp, rfl⟩) (h _)

theorem numeral_unique {s : JStr} {x y : ℚ} (h : Numeral s x) (h' : Numeral s y) : x = y := by
  obtain ⟨d, h1, rfl⟩ := Numeral.parse h
  obtain ⟨d', h2, rfl⟩ := Numeral.parse h'
  rw [h1] at h2
  injection h2 with h2
  rw [h2]

end BoolParser
