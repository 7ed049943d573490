import Verif.Spec.Expr
import Verif.Lemmas.Digits
import Verif.Lemmas.LexValid
import Verif.Lemmas.Listening
/-!
# Literals: their tokens and their values
-/

namespace BoolParser
open Spec

theorem digitsValue_eq (s : JStr) : digitsValue s = natOfDigits 0 s := by
  unfold digitsValue
  generalize 0 = a
  induction s generalizing a with
  | nil => rfl
  | cons c cs ih =>
    rw [List.foldl_cons, ih, natOfDigits]
    unfold digitVal; rfl

/-- The token of a literal. -/
def Spec.Lit.tok : Lit → Token
  | .int ds => ⟨.integer, ds⟩
  | .dec a b => ⟨.decimal, a ++ '.' :: b⟩
  | .ver c p q ps => ⟨.version, c :: dots (p :: q :: ps)⟩
  | .bool true => ⟨.kTrue, j!"true"⟩
  | .bool false => ⟨.kFalse, j!"false"⟩
  | .str q s => ⟨.word, q :: (s ++ [q])⟩
  | .date d => ⟨.date, dateText d⟩
  | .datetime t => ⟨.datetime, dateTimeText t⟩

theorem Spec.Lit.tok_text (l : Lit) : l.tok.text = l.text := by
  cases l <;> try rfl
  rename_i b; cases b <;> rfl

theorem Spec.Lit.tok_kind (l : Lit) : isLitKind l.tok.kind = true := by
  cases l <;> try rfl
  rename_i b; cases b <;> rfl

theorem dots_dotted (ps : List JStr) : dots ps = dotted ps := by
  induction ps with
  | nil => rfl
  | cons p ps ih => rw [dots, dotted, ih]

/-! ### Padded numbers -/

theorem pad2 (n : Nat) : pad 2 n = [digitChar (n / 10 % 10), digitChar (n % 10)] := rfl
theorem pad4 (n : Nat) : pad 4 n =
    [digitChar (n / 10 / 10 / 10 % 10), digitChar (n / 10 / 10 % 10), digitChar (n / 10 % 10), digitChar (n % 10)] := rfl

theorem digitChar_digit (n : Nat) : isDigit (digitChar (n % 10)) = true := isDigit_digitChar (Nat.mod_lt _ (by decide))
theorem digitChar_val (n : Nat) : digitVal (digitChar (n % 10)) = n % 10 := digitVal_digitChar (Nat.mod_lt _ (by decide))

theorem two_pad {n : Nat} (h : n < 100) (r : JStr) : two (pad 2 n ++ r) = some (n, r) := by
  rw [pad2]
  simp only [List.cons_append, List.nil_append, two, digitChar_digit, Bool.and_self, if_true, natOfDigits, digitChar_val]
  have : (0 * 10 + n / 10 % 10) * 10 + n % 10 = n := by omega
  rw [this]

theorem year_pad {n : Nat} (h1 : 1 ≤ n) (h : n < 10000) (r : JStr) :
    parseYearOfEra (pad 4 n ++ '-' :: r) = some (n, '-' :: r) := by
  rw [pad4]
  have d1 := digitChar_digit (n / 10 / 10 / 10)
  have d2 := digitChar_digit (n / 10 / 10)
  have d3 := digitChar_digit (n / 10)
  have d4 := digitChar_digit n
  have v1 := digitChar_val (n / 10 / 10 / 10)
  have v2 := digitChar_val (n / 10 / 10)
  have v3 := digitChar_val (n / 10)
  have v4 := digitChar_val n
  generalize digitChar (n / 10 / 10 / 10 % 10) = a at *
  generalize digitChar (n / 10 / 10 % 10) = b at *
  generalize digitChar (n / 10 % 10) = c at *
  generalize digitChar (n % 10) = d at *
  have e : ([a, b, c, d] ++ '-' :: r).takeWhile isDigit = [a, b, c, d] :=
    takeWhile_append (by simp [d1, d2, d3, d4]) (by rfl)
  have hv : natOfDigits 0 [a, b, c, d] = n := by
    simp only [natOfDigits, v1, v2, v3, v4]; omega
  unfold parseYearOfEra
  split
  · rename_i heq
    simp only [List.cons_append, List.cons.injEq] at heq
    exact absurd heq.1 (digit_ne d1 (by rfl))
  · rename_i heq
    simp only [List.cons_append, List.cons.injEq] at heq
    exact absurd heq.1 (digit_ne d1 (by rfl))
  · rw [e]
    simp only [List.take_succ_cons, List.take_nil, hv, List.length_cons, List.length_nil]
    rw [if_pos ⟨trivial, h1, by omega⟩]
    rfl

theorem monthLen_le (y : Int) (m : Nat) : monthLen y m ≤ 31 := by
  unfold monthLen; split
  · omega
  · split
    · split <;> omega
    · omega

theorem datePart_text {d : Date} (h : RealDate d) (r : JStr) :
    parseDatePart (dateText d ++ r) = some (d, r) := by
  obtain ⟨h1, h2, h3, h4, h5, h6⟩ := h
  obtain ⟨y, m, dd⟩ := d
  simp only at *
  obtain ⟨n, rfl⟩ : ∃ n : Nat, y = n := ⟨y.toNat, by omega⟩
  have hm := monthLen_le n m
  simp only [dateText, Int.toNat_natCast, List.append_assoc, parseDatePart]
  rw [show (j!"-" ++ (pad 2 m ++ (j!"-" ++ (pad 2 dd ++ r)))) = '-' :: (pad 2 m ++ ('-' :: (pad 2 dd ++ r))) from rfl,
    year_pad (by omega) (by omega)]
  simp only [Option.bind_eq_bind, Option.bind_some, lit, if_true]
  rw [two_pad (by omega)]
  simp only [Option.bind_some, lit, if_true]
  rw [two_pad (by omega)]
  simp only [Option.bind_some, resolveSmart]
  rw [if_pos (by omega)]
  simp only [Option.bind_some, Nat.min_eq_left h6]
  rfl

theorem parseDate_text {d : Date} (h : RealDate d) : parseDate (dateText d) = some d := by
  have := datePart_text h []
  rw [List.append_nil] at this
  rw [parseDate, this]

theorem parseDateTime_text {t : DateTime} (h : RealDate t.date) (h1 : t.hour ≤ 23) (h2 : t.minute ≤ 59)
    (h3 : t.second ≤ 59) (h4 : t.nano = 0) : parseDateTime (dateTimeText t) = some t := by
  obtain ⟨d, hh, mm, ss, nn⟩ := t
  simp only at *
  subst h4
  simp only [dateTimeText, List.append_assoc, parseDateTime]
  rw [datePart_text h]
  have e : pad 2 ss = pad 2 ss ++ [] := by simp
  rw [e]
  simp only [Option.bind_eq_bind, Option.bind_some]
  simp only [lit, List.cons_append, List.nil_append, if_true, Option.bind_some, two_pad (show hh < 100 by omega),
    two_pad (show mm < 100 by omega), two_pad (show ss < 100 by omega)]
  rw [if_neg (by simp), if_neg (by omega), if_pos ⟨h1, h2, h3⟩]

theorem mPat_date (d : Date) : mPat j!"dddd-dd-dd" (dateText d) = true ∧ (dateText d).length = 10 := by
  simp [dateText, pad4, pad2, mPat, digitChar_digit]

theorem mPat_datetime (t : DateTime) :
    mPat j!"dddd-dd-dd dd:dd:dd" (dateTimeText t) = true ∧ (dateTimeText t).length = 19 := by
  simp [dateTimeText, dateText, pad4, pad2, mPat, digitChar_digit]

theorem Spec.Lit.tok_valid {l : Lit} (h : l.Valid) : ValidTok l.tok := by
  cases l with
  | int ds => exact valid_int h.1
  | dec a b => exact valid_dec h.1 h.2
  | ver c p q ps =>
    have := valid_version h.1 h.2.1 h.2.2.1 h.2.2.2
    rw [← dots_dotted] at this; exact this
  | bool b => cases b with
    | true => exact valid_true
    | false => exact valid_false
  | str q s => exact valid_quoted h.1 h.2
  | date d => exact valid_date (mPat_date d).1 (mPat_date d).2
  | datetime t => exact valid_datetime (mPat_datetime t).1 (mPat_datetime t).2

theorem Dec.parse_point {a b : JStr} (ha : IsDigits a) (hb : IsDigits b) :
    Dec.parse (a ++ '.' :: b) = some ⟨natOfDigits 0 (a ++ b), b.length⟩ := by
  obtain ⟨c, cs, rfl, hc⟩ := digits_head ha
  have e1 : ((c :: cs) ++ '.' :: b).takeWhile isDigit = c :: cs := takeWhile_append ha.2 (by rfl)
  have e2 : ((c :: cs) ++ '.' :: b).dropWhile isDigit = '.' :: b := dropWhile_append ha.2 (by rfl)
  have main : Dec.parseUnsigned false ((c :: cs) ++ '.' :: b) = some ⟨natOfDigits 0 ((c :: cs) ++ b), b.length⟩ := by
    unfold Dec.parseUnsigned
    simp only [e1, e2, all_takeWhile hb.2, all_dropWhile hb.2]
    simp
  unfold Dec.parse
  rw [asciiDigits_append, asciiDigits_digits ha.2, asciiDigits_cons (by decide), asciiDigits_digits hb.2]
  unfold Dec.parseAscii
  split
  · rename_i heq
    simp only [List.cons_append, List.cons.injEq] at heq
    exact absurd heq.1 (digit_ne hc (by rfl))
  · rename_i heq
    simp only [List.cons_append, List.cons.injEq] at heq
    exact absurd heq.1 (digit_ne hc (by rfl))
  · exact main

theorem numericType_digits {ds : JStr} (h : IsDigits ds) :
    numericType ds = if digitsValue ds ≤ 2147483647 then .integer else .long := by
  rw [numericType, parseInt32, parseSigned_digits h.1 h.2, digitsValue_eq]
  simp only
  by_cases hv : natOfDigits 0 ds ≤ 2147483647
  · have : InInt32 (natOfDigits 0 ds : Int) := by unfold InInt32; omega
    simp [hv, this]
  · have : ¬ InInt32 (natOfDigits 0 ds : Int) := by unfold InInt32; omega
    simp [hv, this]

/-- A literal token denotes the value of the literal. -/
theorem Spec.Lit.convert {l : Lit} (h : l.Valid) :
    convertValue l.tok.text (tokType l.tok) = .ok l.value := by
  cases l with
  | int ds =>
    obtain ⟨h1, h2⟩ := h
    simp only [tok, tokType, numericType_digits h1, value]
    by_cases hv : digitsValue ds ≤ 2147483647
    · rw [if_pos hv, if_pos hv]
      rw [digitsValue_eq] at hv ⊢
      simp only [convertValue, parseInt32, parseSigned_digits h1.1 h1.2]
      rw [if_pos (by unfold InInt32; omega)]
    · rw [if_neg hv, if_neg hv]
      rw [digitsValue_eq] at hv h2 ⊢
      simp only [convertValue, parseInt64, parseSigned_digits h1.1 h1.2]
      rw [if_pos (by unfold InInt64; omega)]
  | dec a b =>
    simp only [tok, tokType, convertValue, Dec.parse_point h.1 h.2, value, digitsValue_eq]
  | ver c p q ps => rfl
  | bool b => cases b <;> rfl
  | str q s =>
    obtain ⟨hq, hs⟩ := h
    have e : (q :: (s ++ [q])).getLast? = some q := by simp [List.getLast?_cons]
    have e2 : unquote (q :: (s ++ [q])) = .ok s := by
      unfold unquote
      rw [if_neg (by simp)]
      simp
    simp only [tok, tokType, convertValue, e, List.head?_cons, value, e2]
    rcases hq with rfl | rfl <;> simp <;> rfl
  | date d =>
    simp only [tok, tokType, convertValue, parseDate_text h, value]
  | datetime t =>
    simp only [tok, tokType, convertValue, parseDateTime_text h.1 h.2.1 h.2.2.1 h.2.2.2.1 h.2.2.2.2, value]

theorem Spec.Lit.tokVal {l : Lit} (h : l.Valid) : tokVal l.tok = l.value := by
  rw [BoolParser.tokVal, l.convert h]; rfl

theorem Spec.Lit.tokOk {l : Lit} (h : l.Valid) : tokOk l.tok = true := by
  rw [BoolParser.tokOk, l.convert h]; rfl

theorem Spec.Lit.value_ne_null (l : Lit) : l.value ≠ .null := by
  cases l <;> simp only [value] <;> try (intro h; cases h)
  split <;> (intro h; cases h)

/-- Number literals. -/
theorem Spec.Lit.number_kind {l : Lit} (h : l.isNumber = true) : isNumKind l.tok.kind = true := by
  cases l <;> first | rfl | cases h

theorem Spec.Lit.number_type {l : Lit} (h : l.isNumber = true) (hv : l.Valid) :
    tokType l.tok = getDataType l.value := by
  cases l with
  | int ds =>
    simp only [tok, tokType, numericType_digits hv.1, value]
    split <;> rfl
  | dec a b => rfl
  | _ => cases h

end BoolParser
