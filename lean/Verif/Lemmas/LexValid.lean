import Verif.Lemmas.LexSeq
import Verif.Spec.Syntax
/-!
# Names and literals are valid tokens
-/

namespace BoolParser
open Spec

theorem nameChar_field (c : Char) : isNameChar c = isFieldChar c := by
  simp only [isNameChar, isLetter, isFieldChar]

theorem all_name_field {w : JStr} (h : w.all isNameChar = true) : w.all isFieldChar = true := by
  rw [List.all_eq_true] at *
  intro c hc; rw [← nameChar_field]; exact h c hc

theorem letter_not_digit {c : Char} (h : isLetter c = true ∨ c = '_') : isDigit c = false := by
  rcases h with h | rfl
  · cases e : isDigit c with
    | false => rfl
    | true =>
      simp only [isLetter, isDigit, Bool.or_eq_true, Bool.and_eq_true, decide_eq_true_eq] at h e
      omega
  · rfl

theorem mLit2_kw {l1 l2 s : JStr} {j : Nat} (h1 : l1 ≠ []) (h2 : l2 ≠ []) (k1 : l1 ∈ keywords)
    (k2 : l2 ∈ keywords) (hs : s ∉ keywords) (h : mLit2 l1 l2 s = some j) : j < s.length := by
  have hj := mLit2_sane h1 h2 s j h
  rcases Nat.lt_or_eq_of_le hj.2 with h' | h'
  · exact h'
  · subst h'
    rcases mLit2_full h with rfl | rfl
    · exact absurd k1 hs
    · exact absurd k2 hs

theorem mLit_punct {l s : JStr} {j : Nat} (h1 : l.all isFieldChar = false)
    (ha : s.all isFieldChar = true) (hl : l ≠ []) (h : mLit l s = some j) : j < s.length := by
  have hj := mLit_sane hl s j h
  rcases Nat.lt_or_eq_of_le hj.2 with h' | h'
  · exact h'
  · subst h'
    rw [mLit_full h, h1] at ha; cases ha

/-- A field name is read as one FIELD token. -/
theorem valid_name {f : JStr} (h : IsName f) : ValidTok ⟨.field, f⟩ := by
  obtain ⟨⟨c, cs, rfl, hc⟩, hall, hk⟩ := h
  have ha := all_name_field hall
  have hd := letter_not_digit hc
  have hne : c :: cs ≠ [] := by simp
  refine ⟨hne, ?_⟩
  have e : lexRules = lexRules.take 41 ++ (.tok .field, mField) :: [] := by rfl
  simp only
  rw [e]
  apply bestMatch_pick
  · unfold mField; rw [all_takeWhile ha]; simp [nz]
  · unfold lexRules
    simp only [List.take_succ_cons, List.take_zero, List.forall_mem_cons]
    refine ⟨?_, ?_, ?_, ?and, ?or, ?_, ?_, ?_, ?_, ?_, ?_, ?_, ?_, ?_, ?_, ?_,
      ?_, ?_, ?_, ?_, ?_, ?_, ?_, ?_, ?_, ?_, ?_, ?_, ?_, ?_, ?_, ?_, ?_, ?_, ?dec, ?ver, ?int, ?date,
      ?datetime, ?ws, ?word, ?nil⟩
    case and =>
      intro j h
      split at h
      · rename_i hp
        injection h with h; subst h
        have := (List.isPrefixOf_iff_prefix.mp hp).length_le
        rcases Nat.lt_or_eq_of_le this with h' | h'
        · exact h'
        · exact absurd (by rw [isPrefixOf_full hp h']; simp [keywords]) hk
      · have hj := mLit2_sane (by simp) (by simp) _ j h
        rcases Nat.lt_or_eq_of_le hj.2 with h' | h'
        · exact h'
        · subst h'
          rcases mLit2_full h with e | e
          · exact absurd (by rw [e]; simp [keywords]) hk
          · rw [e] at ha; cases ha
    case or =>
      intro j h
      split at h
      · rename_i hp
        injection h with h; subst h
        have := (List.isPrefixOf_iff_prefix.mp hp).length_le
        rcases Nat.lt_or_eq_of_le this with h' | h'
        · exact h'
        · exact absurd (by rw [isPrefixOf_full hp h']; simp [keywords]) hk
      · have hj := mLit2_sane (by simp) (by simp) _ j h
        rcases Nat.lt_or_eq_of_le hj.2 with h' | h'
        · exact h'
        · subst h'
          rcases mLit2_full h with e | e
          · exact absurd (by rw [e]; simp [keywords]) hk
          · rw [e] at ha; cases ha
    case dec => intro j h; simp [mDecimal, hd] at h
    case ver => intro j h; simp [mVersion, hd] at h
    case int => intro j h; simp [mInteger, nz, hd] at h
    case date => intro j h; simp only [mDate_word ha] at h; cases h
    case datetime => intro j h; simp only [mDateTime_word ha] at h; cases h
    case ws =>
      intro j h
      have := mWs_word (r := []) hne ha
      rw [List.append_nil] at this
      simp only [this] at h; cases h
    case word =>
      intro j h
      have := mWord_word (r := []) hne ha
      rw [List.append_nil] at this
      simp only [this] at h; cases h
    case nil => intro p hp; cases hp
    all_goals first
      | exact fun j h => mLit_punct (by rfl) ha (by simp) h
      | exact fun j h => mLit2_kw (by simp) (by simp) (by simp [keywords]) (by simp [keywords]) hk h
  · intro p hp; cases hp

/-- Keywords, by computation. -/
theorem valid_of_best {t : Token} (h : bestMatch t.text lexRules = some (.tok t.kind, t.text.length)) :
    ValidTok t :=
  ⟨by
    intro e
    have := bestMatch_sane h
    rw [e] at this
    simp at this, h⟩

theorem valid_and : ValidTok ⟨.kAnd, j!"AND"⟩ := valid_of_best (by krfl)
theorem valid_or : ValidTok ⟨.kOr, j!"OR"⟩ := valid_of_best (by krfl)
theorem valid_not : ValidTok ⟨.kNot, j!"NOT"⟩ := valid_of_best (by krfl)
theorem valid_in : ValidTok ⟨.kIn, j!"IN"⟩ := valid_of_best (by krfl)
theorem valid_to : ValidTok ⟨.kTo, j!"TO"⟩ := valid_of_best (by krfl)
theorem valid_true : ValidTok ⟨.kTrue, j!"true"⟩ := valid_of_best (by krfl)
theorem valid_false : ValidTok ⟨.kFalse, j!"false"⟩ := valid_of_best (by krfl)
theorem valid_lparen : ValidTok ⟨.lparen, j!"("⟩ := valid_of_best (by krfl)
theorem valid_rparen : ValidTok ⟨.rparen, j!")"⟩ := valid_of_best (by krfl)
theorem valid_comma : ValidTok ⟨.comma, j!","⟩ := valid_of_best (by krfl)
theorem valid_cAll : ValidTok ⟨.cAll, j!"CONTAINS_ALL"⟩ := valid_of_best (by krfl)
theorem valid_cAny : ValidTok ⟨.cAny, j!"CONTAINS_ANY"⟩ := valid_of_best (by krfl)

theorem digits_head {s : JStr} (h : IsDigits s) : ∃ c cs, s = c :: cs ∧ isDigit c = true := by
  obtain ⟨hne, ha⟩ := h
  cases s with
  | nil => exact absurd rfl hne
  | cons c cs => simp at ha; exact ⟨c, cs, rfl, ha.1⟩

/-- A digit sequence is read as one INTEGER token. -/
theorem valid_int {s : JStr} (h : IsDigits s) : ValidTok ⟨.integer, s⟩ := by
  have ha := all_field_of_digits h.2
  obtain ⟨c, cs, rfl, hc⟩ := digits_head h
  have hcs : cs.all isDigit = true := by have := h.2; simp at this ⊢; exact this.2
  have hne : c :: cs ≠ [] := by simp
  refine ⟨hne, ?_⟩
  have e : lexRules = (lexRules.take 34 ++ [(.tok .decimal, mDecimal), (.tok .version, mVersion)]) ++
    (.tok .integer, mInteger) :: lexRules.drop 37 := by rfl
  simp only
  rw [e]
  apply bestMatch_pick
  · unfold mInteger; rw [all_takeWhile h.2]; simp [nz]
  · intro p hp j hj
    rcases List.mem_append.mp hp with hp | hp
    · rw [lit_rules_digit rfl hc p hp] at hj; cases hj
    · simp only [List.mem_cons, List.not_mem_nil, or_false] at hp
      rcases hp with rfl | rfl
      · exfalso
        simp only [mDecimal, all_takeWhile h.2, List.drop_length] at hj
        split at hj
        · cases hj
        · cases hj
      · exfalso
        simp only [mVersion, hc, if_true] at hj
        have : dotInts cs.length cs = 0 := by
          cases cs with
          | nil => rfl
          | cons x xs =>
            simp at hcs
            exact dotInts_noDot _ (digit_ne_dot hcs.1)
        simp [this] at hj
  · intro p hp j hj
    exact (lexRules_sane p (List.mem_of_mem_drop hp) _ _ hj).2

/-- Digits, a point, digits: one DECIMAL token. -/
theorem valid_dec {a b : JStr} (h : IsDigits a) (h' : IsDigits b) :
    ValidTok ⟨.decimal, a ++ '.' :: b⟩ := by
  obtain ⟨c, cs, rfl, hc⟩ := digits_head h
  refine ⟨by simp, ?_⟩
  have e : lexRules = lexRules.take 34 ++ (.tok .decimal, mDecimal) :: lexRules.drop 35 := by rfl
  simp only
  rw [e]
  apply bestMatch_pick
  · have e1 : ((c :: cs) ++ '.' :: b).takeWhile isDigit = c :: cs :=
      takeWhile_append h.2 (by rfl)
    have e2 : ((c :: cs) ++ '.' :: b).drop (c :: cs).length = '.' :: b := List.drop_left
    simp only [mDecimal, e1, e2, all_takeWhile h'.2]
    have : b.length ≠ 0 := by simpa using h'.1
    rw [if_neg (by simp), if_neg this]
    simp only [List.length_append, List.length_cons, Option.some.injEq]; omega
  · intro p hp j hj
    rw [lit_rules_digit (d := c) rfl hc p hp] at hj; cases hj
  · intro p hp j hj
    exact (lexRules_sane p (List.mem_of_mem_drop hp) _ _ hj).2

/-- A quoted text is read as one WORD token. -/
theorem valid_quoted {q : Char} {s : JStr} (hq : q = '\'' ∨ q = '"') (hs : q ∉ s) :
    ValidTok ⟨.word, q :: (s ++ [q])⟩ := by
  refine ⟨by simp, ?_⟩
  apply bestMatch_word_rule
  have e : (s ++ [q]).takeWhile (· ≠ q) = s := by
    apply takeWhile_append
    · rw [List.all_eq_true]; intro x hx
      have : x ≠ q := fun e => hs (e ▸ hx)
      simpa using this
    · simp
  simp only [mWord, e, if_pos hq]
  simp

/-- The text `.n1.n2...`. -/
def dotted : List JStr → JStr
  | [] => []
  | p :: ps => '.' :: (p ++ dotted ps)

theorem dotInts_dotted (ps : List JStr) (hp : ∀ p ∈ ps, IsDigits p) (f : Nat)
    (hf : (dotted ps).length ≤ f) : dotInts f (dotted ps) = (dotted ps).length := by
  induction ps generalizing f with
  | nil => cases f <;> rfl
  | cons p ps ih =>
    cases f with
    | zero => simp [dotted] at hf
    | succ f =>
      have h1 := hp p (by simp)
      have e1 : (p ++ dotted ps).takeWhile isDigit = p := by
        apply takeWhile_append h1.2
        cases ps with
        | nil => rfl
        | cons q qs => rfl
      simp only [dotted, List.length_cons, List.length_append] at hf ⊢
      simp only [dotInts, e1]
      have : p.length ≠ 0 := by simpa using h1.1
      rw [if_neg this, List.drop_left, ih (fun p hp' => hp p (by simp [hp'])) f (by omega)]
      omega

/-- A digit followed by at least two dotted numbers: one APP_VERSION token. -/
theorem valid_version {c : Char} {p1 p2 : JStr} {ps : List JStr} (hc : isDigit c = true)
    (h1 : IsDigits p1) (h2 : IsDigits p2) (hp : ∀ p ∈ ps, IsDigits p) :
    ValidTok ⟨.version, c :: dotted (p1 :: p2 :: ps)⟩ := by
  have hall : ∀ p ∈ p1 :: p2 :: ps, IsDigits p := by
    intro p h; rcases List.mem_cons.mp h with rfl | h
    · exact h1
    · rcases List.mem_cons.mp h with rfl | h
      · exact h2
      · exact hp p h
  refine ⟨by simp, ?_⟩
  have e : lexRules = (lexRules.take 34 ++ [(.tok .decimal, mDecimal)]) ++
    (.tok .version, mVersion) :: lexRules.drop 36 := by rfl
  simp only
  rw [e]
  apply bestMatch_pick
  · simp only [mVersion, hc, if_true, dotInts_dotted _ hall _ (le_refl _)]
    rw [if_neg (by simp [dotted])]
    simp only [List.length_cons, Option.some.injEq]; omega
  · intro p hp' j hj
    rcases List.mem_append.mp hp' with hp' | hp'
    · rw [lit_rules_digit (d := c) rfl hc p hp'] at hj; cases hj
    · simp only [List.mem_cons, List.not_mem_nil, or_false] at hp'
      subst hp'
      have e1 : (c :: dotted (p1 :: p2 :: ps)).takeWhile isDigit = [c] := by
        simp only [dotted, List.takeWhile_cons, hc, if_true]; rfl
      have e2 : (p1 ++ dotted (p2 :: ps)).takeWhile isDigit = p1 := takeWhile_append h1.2 (by rfl)
      have h10 : p1.length ≠ 0 := by simpa using h1.1
      simp only [mDecimal, e1] at hj
      simp only [List.length_cons, List.length_nil, dotted, List.drop_succ_cons, List.drop_zero] at hj e2
      rw [if_neg (by omega)] at hj
      simp only [e2] at hj
      rw [if_neg h10] at hj
      injection hj with hj
      simp only [dotted, List.length_cons, List.length_append]
      omega
  · intro p hp' j hj
    exact (lexRules_sane p (List.mem_of_mem_drop hp') _ _ hj).2

/-- A text of the shape of a date is read as one DATE token. -/
theorem valid_date {s : JStr} (h : mPat j!"dddd-dd-dd" s = true) (hl : s.length = 10) :
    ValidTok ⟨.date, s⟩ := by
  refine ⟨(by intro e; simp only at e; rw [e] at hl; cases hl), ?_⟩
  simp only [hl]
  apply bestMatch_date h
  cases e : mDateTime s with
  | none => rfl
  | some n =>
    have h1 := mDateTime_sane s n e
    simp only [mDateTime] at e
    split at e
    · injection e with e; omega
    · cases e

/-- A text of the shape of a date-time is read as one DATETIME token. -/
theorem valid_datetime {s : JStr} (h : mPat j!"dddd-dd-dd dd:dd:dd" s = true) (hl : s.length = 19) :
    ValidTok ⟨.datetime, s⟩ := by
  refine ⟨(by intro e; simp only at e; rw [e] at hl; cases hl), ?_⟩
  simp only [hl]
  exact bestMatch_datetime h

end BoolParser
