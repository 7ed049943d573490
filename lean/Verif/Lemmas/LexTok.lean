import Verif.Lemmas.Lexing
/-!
# A token keeps its shape whatever follows, as long as the follower does not glue to it
-/

namespace BoolParser

theorem bestMatch_mem {s : JStr} {rs : List (LexKind × (JStr → Option Nat))} {k : LexKind} {n : Nat}
    (h : bestMatch s rs = some (k, n)) : ∃ p ∈ rs, p.1 = k ∧ p.2 s = some n := by
  induction rs with
  | nil => simp [bestMatch] at h
  | cons p ps ih =>
    obtain ⟨k0, m⟩ := p
    simp only [bestMatch] at h
    split at h
    · obtain ⟨q, hq, h'⟩ := ih h
      exact ⟨q, by simp [hq], h'⟩
    · rename_i n1 e1 e2
      simp only [Option.some.injEq, Prod.mk.injEq] at h
      obtain ⟨rfl, rfl⟩ := h
      exact ⟨(k0, m), by simp, rfl, e1⟩
    · rename_i n1 k' n' e1 e2
      split at h
      · simp only [Option.some.injEq, Prod.mk.injEq] at h
        obtain ⟨rfl, rfl⟩ := h
        obtain ⟨q, hq, h'⟩ := ih e2
        exact ⟨q, by simp [hq], h'⟩
      · simp only [Option.some.injEq, Prod.mk.injEq] at h
        obtain ⟨rfl, rfl⟩ := h
        exact ⟨(k0, m), by simp, rfl, e1⟩

/-- A matched length lies inside the input and is not zero, for every rule. -/
def Sane (m : JStr → Option Nat) : Prop := ∀ s n, m s = some n → 0 < n ∧ n ≤ s.length

theorem nz_sane {s : JStr} {p : Char → Bool} {n : Nat} (h : nz (s.takeWhile p).length = some n) :
    0 < n ∧ n ≤ s.length := by
  unfold nz at h
  split at h
  · cases h
  · injection h with h; subst h
    exact ⟨by omega, takeWhile_le _⟩

theorem mLit_sane {l : JStr} (hl : l ≠ []) : Sane (mLit l) := by
  intro s n h
  unfold mLit at h
  split at h
  · rename_i hp
    injection h with h; subst h
    have := (List.isPrefixOf_iff_prefix.mp hp).length_le
    exact ⟨List.length_pos_iff.mpr hl, this⟩
  · cases h

theorem mLit2_sane {l1 l2 : JStr} (h1 : l1 ≠ []) (h2 : l2 ≠ []) : Sane (mLit2 l1 l2) := by
  intro s n h
  unfold mLit2 at h
  split at h
  · rename_i hp
    exact mLit_sane h1 s n (by unfold mLit; rw [if_pos hp]; exact h)
  · exact mLit_sane h2 s n h

theorem dotInts_le (f : Nat) (s : JStr) : dotInts f s ≤ s.length := by
  induction f generalizing s with
  | zero => simp [dotInts]
  | succ f ih =>
    cases s with
    | nil => simp [dotInts]
    | cons c cs =>
      unfold dotInts
      split
      · rename_i r heq
        injection heq with h1 h2; subst h2
        simp only
        split
        · simp
        · have h1 := ih (cs.drop (cs.takeWhile isDigit).length)
          have h2 : (cs.takeWhile isDigit).length ≤ cs.length := takeWhile_le cs
          simp only [List.length_drop] at h1
          simp only [List.length_cons]
          omega
      · simp

theorem mDecimal_sane : Sane mDecimal := by
  intro s n h
  simp only [mDecimal] at h
  split at h
  · cases h
  · split at h
    · rename_i r heq
      split at h
      · cases h
      · injection h with h; subst h
        have h1 : (r.takeWhile isDigit).length ≤ r.length := takeWhile_le r
        have h2 := congrArg List.length heq
        have h3 : (s.takeWhile isDigit).length ≤ s.length := takeWhile_le s
        simp only [List.length_drop, List.length_cons] at h2
        omega
    · cases h

theorem mVersion_sane : Sane mVersion := by
  intro s n h
  cases s with
  | nil => cases h
  | cons c r =>
    simp only [mVersion] at h
    split at h
    · split at h
      · cases h
      · injection h with h; subst h
        have := dotInts_le r.length r
        simp only [List.length_cons]
        omega
    · cases h

theorem mPat_length {p s : JStr} (h : mPat p s = true) : p.length ≤ s.length := by
  induction p generalizing s with
  | nil => simp
  | cons c cs ih =>
    cases s with
    | nil => cases h
    | cons d ds =>
      simp only [mPat, Bool.and_eq_true] at h
      have := ih h.2
      simp only [List.length_cons]; omega

theorem mDate_sane : Sane mDate := by
  intro s n h
  unfold mDate at h
  split at h
  · rename_i hp
    injection h with h; subst h
    exact ⟨by omega, mPat_length hp⟩
  · cases h

theorem mDateTime_sane : Sane mDateTime := by
  intro s n h
  unfold mDateTime at h
  split at h
  · rename_i hp
    injection h with h; subst h
    exact ⟨by omega, mPat_length hp⟩
  · cases h

theorem mWord_sane : Sane mWord := by
  intro s n h
  cases s with
  | nil => cases h
  | cons c r =>
    simp only [mWord] at h
    split at h
    · split at h
      · injection h with h; subst h
        simp only [List.length_cons]; omega
      · cases h
    · cases h

theorem lexRules_sane : ∀ p ∈ lexRules, Sane p.2 := by
  unfold lexRules
  simp only [List.forall_mem_cons]
  refine ⟨?_, ?_, ?_, ?_, ?_, ?_, ?_, ?_, ?_, ?_, ?_, ?_, ?_, ?_, ?_, ?_,
    ?_, ?_, ?_, ?_, ?_, ?_, ?_, ?_, ?_, ?_, ?_, ?_, ?_, ?_, ?_, ?_, ?_, ?_, mDecimal_sane,
    mVersion_sane, fun s n h => nz_sane h, mDate_sane, mDateTime_sane, fun s n h => nz_sane h,
    mWord_sane, fun s n h => nz_sane h, ?_⟩
  all_goals first
    | exact mLit_sane (by simp)
    | exact mLit2_sane (by simp) (by simp)
    | skip
  · intro s n h
    simp only at h
    split at h
    · rename_i hp
      exact mLit_sane (l := j!"AND") (by simp) s n (by unfold mLit; rw [if_pos hp]; exact h)
    · exact mLit2_sane (by simp) (by simp) s n h
  · intro s n h
    simp only at h
    split at h
    · rename_i hp
      exact mLit_sane (l := j!"OR") (by simp) s n (by unfold mLit; rw [if_pos hp]; exact h)
    · exact mLit2_sane (by simp) (by simp) s n h
  · intro p hp; cases hp

theorem bestMatch_sane {s : JStr} {k : LexKind} {n : Nat} (h : bestMatch s lexRules = some (k, n)) :
    0 < n ∧ n ≤ s.length := by
  obtain ⟨p, hp, _, h2⟩ := bestMatch_mem h
  exact lexRules_sane p hp s n h2

/-- The token, written alone, is read as itself. -/
structure ValidTok (t : Token) : Prop where
  ne : t.text ≠ []
  best : bestMatch t.text lexRules = some (.tok t.kind, t.text.length)

/-- Four digits. -/
def digits4 (s : JStr) : Bool := s.length == 4 && s.all isDigit

/-- ` dd:dd:dd` comes next. -/
def timeAhead (r : JStr) : Bool := mPat j!" dd:dd:dd" r

/-- Does the text `r` after the token leave the token alone? Words (names, keywords, numbers) must not
be continued by a field character, nor a four-digit number by `-` (it could become a date), `<`/`>` not
by `=`, a date not by a time of day. Everything else may be followed by anything. -/
def glueOk (t : Token) (r : JStr) : Bool :=
  match t.kind with
  | .date => !timeAhead r
  | .datetime => true
  | .word => true
  | .cmp .gt => r.head? != some '='
  | .cmp .lt => r.head? != some '='
  | .cmp _ => true
  | .arith _ => true
  | .lparen => true
  | .rparen => true
  | .comma => true
  | _ => !t.text.all isFieldChar ||
      (r.head?.all (fun c => !isFieldChar c) && !(digits4 t.text && r.head? == some '-'))

theorem isPrefixOf_full {l s : JStr} (h : l.isPrefixOf s = true) (hl : l.length = s.length) : s = l :=
  ((List.isPrefixOf_iff_prefix.mp h).eq_of_length hl).symm

theorem mLit_full {l s : JStr} (h : mLit l s = some s.length) : s = l := by
  unfold mLit at h
  split at h
  · rename_i hp; injection h with h; exact isPrefixOf_full hp h
  · cases h

theorem mLit2_full {l1 l2 s : JStr} (h : mLit2 l1 l2 s = some s.length) : s = l1 ∨ s = l2 := by
  unfold mLit2 at h
  split at h
  · rename_i hp; injection h with h; exact Or.inl (isPrefixOf_full hp h)
  · exact Or.inr (mLit_full h)

theorem mem_takeWhile {p : Char → Bool} {s : JStr} {c : Char} (h : c ∈ s.takeWhile p) : p c = true := by
  induction s with
  | nil => simp at h
  | cons d ds ih =>
    rw [List.takeWhile_cons] at h
    split at h
    · rename_i hd
      rcases List.mem_cons.mp h with rfl | h
      · exact hd
      · exact ih h
    · simp at h

theorem takeWhile_full {p : Char → Bool} {s : JStr} (h : (s.takeWhile p).length = s.length) :
    s.all p = true := by
  have : s.takeWhile p = s := (List.takeWhile_prefix p).eq_of_length h
  rw [← this, List.all_eq_true]
  intro c hc
  exact mem_takeWhile hc

theorem mDecimal_full {s : JStr} (h : mDecimal s = some s.length) : s.all isFieldChar = true := by
  simp only [mDecimal] at h
  split at h
  · cases h
  · split at h
    · rename_i r heq
      split at h
      · cases h
      · injection h with h
        have h2 := congrArg List.length heq
        simp only [List.length_drop, List.length_cons] at h2
        have h3 : (s.takeWhile isDigit).length ≤ s.length := takeWhile_le s
        have hr : r.all isDigit = true := takeWhile_full (by omega)
        have hs : s = s.takeWhile isDigit ++ '.' :: r := by
          conv_lhs => rw [← List.take_append_drop (s.takeWhile isDigit).length s]
          rw [heq]
          congr 1
          exact (List.prefix_iff_eq_take.mp (List.takeWhile_prefix isDigit)).symm
        rw [hs]
        simp only [List.all_append, List.all_cons, Bool.and_eq_true]
        refine ⟨all_field_of_digits ?_, by rfl, all_field_of_digits hr⟩
        rw [List.all_eq_true]; intro c hc; exact mem_takeWhile hc
    · cases h

theorem dotInts_full (f : Nat) (s : JStr) (h : dotInts f s = s.length) : s.all isFieldChar = true := by
  induction f generalizing s with
  | zero =>
    simp only [dotInts] at h
    have : s = [] := List.eq_nil_of_length_eq_zero h.symm
    subst this; rfl
  | succ f ih =>
    cases s with
    | nil => rfl
    | cons c cs =>
      unfold dotInts at h
      split at h
      · rename_i r heq
        injection heq with h1 h2; subst h2; subst h1
        simp only at h
        split at h
        · simp at h
        · have h2 : (cs.takeWhile isDigit).length ≤ cs.length := takeWhile_le cs
          have hd : dotInts f (cs.drop (cs.takeWhile isDigit).length) =
              (cs.drop (cs.takeWhile isDigit).length).length := by
            simp only [List.length_cons, List.length_drop] at *; omega
          have h3 := ih _ hd
          have hs : cs = cs.takeWhile isDigit ++ cs.drop (cs.takeWhile isDigit).length := by
            conv_lhs => rw [← List.take_append_drop (cs.takeWhile isDigit).length cs]
            congr 1
            exact (List.prefix_iff_eq_take.mp (List.takeWhile_prefix isDigit)).symm
          rw [hs]
          simp only [List.all_append, List.all_cons, Bool.and_eq_true]
          refine ⟨by rfl, all_field_of_digits ?_, h3⟩
          rw [List.all_eq_true]; intro c hc; exact mem_takeWhile hc
      · simp at h

theorem mVersion_full {s : JStr} (h : mVersion s = some s.length) : s.all isFieldChar = true := by
  cases s with
  | nil => rfl
  | cons c r =>
    simp only [mVersion] at h
    split at h
    · rename_i hc
      split at h
      · cases h
      · injection h with h
        simp only [List.length_cons] at h
        have := dotInts_full r.length r (by omega)
        simp [field_of_digit hc, this]
    · cases h

theorem nz_full {p : Char → Bool} {s : JStr} (h : nz (s.takeWhile p).length = some s.length) :
    s.all p = true := by
  unfold nz at h
  split at h
  · cases h
  · injection h with h; exact takeWhile_full h

/-! ### Dates -/

theorem mPat_append {p s r : JStr} (h : mPat p s = true) : mPat p (s ++ r) = true := by
  induction p generalizing s with
  | nil => rfl
  | cons c cs ih =>
    cases s with
    | nil => cases h
    | cons d ds =>
      simp only [mPat, Bool.and_eq_true, List.cons_append] at h ⊢
      exact ⟨h.1, ih h.2⟩

theorem mPat_split {p q s r : JStr} (hl : p.length = s.length) :
    mPat (p ++ q) (s ++ r) = (mPat p s && mPat q r) := by
  induction p generalizing s with
  | nil =>
    have : s = [] := List.eq_nil_of_length_eq_zero hl.symm
    subst this; simp [mPat]
  | cons c cs ih =>
    cases s with
    | nil => simp at hl
    | cons d ds =>
      simp only [List.length_cons, Nat.add_right_cancel_iff] at hl
      simp only [mPat, List.cons_append, ih hl, Bool.and_assoc]

/-- A text that starts like a date is matched by no rule but the numeric ones, up to length 4. -/
theorem date_rules {s : JStr} (h : mPat j!"dddd-dd-dd" s = true) :
    ∃ a b c d t, isDigit a = true ∧ isDigit b = true ∧ isDigit c = true ∧ isDigit d = true ∧
      s = a :: b :: c :: d :: '-' :: t := by
  match s, h with
  | a :: b :: c :: d :: e :: t, h =>
    simp only [mPat, Bool.and_eq_true, if_true] at h
    have h5 : e = '-' := by
      have := h.2.2.2.2.1
      simp at this
      exact this.symm
    subst h5
    exact ⟨a, b, c, d, t, h.1, h.2.1, h.2.2.1, h.2.2.2.1, rfl⟩
  | [], h => cases h
  | [a], h => simp [mPat] at h
  | [a, b], h => simp [mPat] at h
  | [a, b, c], h => simp [mPat] at h
  | [a, b, c, d], h => simp [mPat] at h

theorem mLit_head {l s : JStr} {c d : Char} (hl : l.head? = some c) (hs : s.head? = some d) (h : c ≠ d) :
    mLit l s = none := by
  cases l with
  | nil => cases hl
  | cons c' cs =>
    cases s with
    | nil => cases hs
    | cons d' ds =>
      simp only [List.head?_cons, Option.some.injEq] at hl hs
      subst hl; subst hs
      simp [mLit, List.isPrefixOf, h]

theorem mLit2_head {l1 l2 s : JStr} {c1 c2 d : Char} (h1 : l1.head? = some c1) (h2 : l2.head? = some c2)
    (hs : s.head? = some d) (n1 : c1 ≠ d) (n2 : c2 ≠ d) : mLit2 l1 l2 s = none := by
  have e1 := mLit_head h1 hs n1
  have e2 := mLit_head h2 hs n2
  unfold mLit2
  unfold mLit at e1
  by_cases a : l1.isPrefixOf s = true
  · simp [a] at e1
  · simp [a, e2]

/-! ### Which rules can match, by the first character -/

/-- The keyword and punctuation rules (all before `DECIMAL`). -/
theorem lit_rules_digit {s : JStr} {d : Char} (hs : s.head? = some d) (hd : isDigit d = true) :
    ∀ p ∈ lexRules.take 34, p.2 s = none := by
  have ne : ∀ c : Char, isDigit c = false → c ≠ d := fun c hc e => by subst e; rw [hc] at hd; cases hd
  unfold lexRules
  simp only [List.take_succ_cons, List.take_zero, List.forall_mem_cons]
  refine ⟨?_, ?_, ?_, ?_, ?_, ?_, ?_, ?_, ?_, ?_, ?_, ?_, ?_, ?_, ?_, ?_,
    ?_, ?_, ?_, ?_, ?_, ?_, ?_, ?_, ?_, ?_, ?_, ?_, ?_, ?_, ?_, ?_, ?_, ?_, ?_⟩
  all_goals first
    | exact mLit_head rfl hs (ne _ (by rfl))
    | exact mLit2_head rfl rfl hs (ne _ (by rfl)) (ne _ (by rfl))
    | skip
  · have e1 := mLit_head (l := j!"AND") rfl hs (ne _ (by rfl))
    have e2 := mLit2_head (l1 := j!"and") (l2 := j!"&&") rfl rfl hs (ne _ (by rfl)) (ne _ (by rfl))
    simp only [mLit] at e1
    by_cases a : j!"AND".isPrefixOf s = true
    · simp [a] at e1
    · simp only [a, e2]; rfl
  · have e1 := mLit_head (l := j!"OR") rfl hs (ne _ (by rfl))
    have e2 := mLit2_head (l1 := j!"or") (l2 := j!"||") rfl rfl hs (ne _ (by rfl)) (ne _ (by rfl))
    simp only [mLit] at e1
    by_cases a : j!"OR".isPrefixOf s = true
    · simp [a] at e1
    · simp only [a, e2]; rfl
  · intro p hp; cases hp

theorem isWs_digit {d : Char} (h : isDigit d = true) : isWs d = false := by
  cases e : isWs d with
  | false => rfl
  | true =>
    simp only [isWs, Bool.or_eq_true, beq_iff_eq] at e
    rcases e with (((rfl | rfl) | rfl) | rfl) | e
    · cases h
    · cases h
    · cases h
    · cases h
    · simp [isDigit, e] at h

theorem mWs_digit {s : JStr} {d : Char} (hs : s.head? = some d) (hd : isDigit d = true) :
    mWs s = none := by
  cases s with
  | nil => rfl
  | cons c cs =>
    simp only [List.head?_cons, Option.some.injEq] at hs; subst hs
    simp [mWs, nz, isWs_digit hd]

theorem mWord_digit {s : JStr} {d : Char} (hs : s.head? = some d) (hd : isDigit d = true) :
    mWord s = none := by
  cases s with
  | nil => rfl
  | cons c cs =>
    simp only [List.head?_cons, Option.some.injEq] at hs; subst hs
    have h1 : c ≠ '\'' := by intro e; subst e; cases hd
    have h2 : c ≠ '"' := by intro e; subst e; cases hd
    simp [mWord, h1, h2]

theorem digit_ne_dot {c : Char} (h : isDigit c = true) : c ≠ '.' := by
  intro e; subst e; cases h

theorem dotInts_noDot (f : Nat) {c : Char} {cs : JStr} (h : c ≠ '.') : dotInts f (c :: cs) = 0 := by
  cases f with
  | zero => rfl
  | succ f =>
    unfold dotInts
    split
    · rename_i heq; injection heq with h1 _; exact absurd h1 h
    · rfl

section date
variable {a b c d : Char} {t : JStr} (ha : isDigit a = true) (hb : isDigit b = true)
  (hc : isDigit c = true) (hd : isDigit d = true)
include ha hb hc hd

theorem date_mDecimal : mDecimal (a :: b :: c :: d :: '-' :: t) = none := by
  have e : (a :: b :: c :: d :: '-' :: t).takeWhile isDigit = [a, b, c, d] := by
    simp [ha, hb, hc, hd]; rfl
  simp only [mDecimal, e]
  rfl

theorem date_mInteger : mInteger (a :: b :: c :: d :: '-' :: t) = some 4 := by
  have e : (a :: b :: c :: d :: '-' :: t).takeWhile isDigit = [a, b, c, d] := by
    simp [ha, hb, hc, hd]; rfl
  simp only [mInteger, e]
  rfl

theorem date_mField : mField (a :: b :: c :: d :: '-' :: t) = some 4 := by
  have e : (a :: b :: c :: d :: '-' :: t).takeWhile isFieldChar = [a, b, c, d] := by
    simp [field_of_digit ha, field_of_digit hb, field_of_digit hc, field_of_digit hd]; rfl
  simp only [mField, e]
  rfl

omit hc hd in
theorem date_mVersion : mVersion (a :: b :: c :: d :: '-' :: t) = none := by
  simp [mVersion, ha, dotInts_noDot _ (digit_ne_dot hb)]

end date

theorem bestMatch_date {s : JStr} (h : mPat j!"dddd-dd-dd" s = true)
    (ht : mDateTime s = none) : bestMatch s lexRules = some (.tok .date, 10) := by
  obtain ⟨a, b, c, d, t, ha, hb, hc, hd, rfl⟩ := date_rules h
  have e : lexRules = (lexRules.take 34 ++ [(.tok .decimal, mDecimal), (.tok .version, mVersion),
    (.tok .integer, mInteger)]) ++ (.tok .date, mDate) :: [(.tok .datetime, mDateTime), (.ws, mWs),
    (.tok .word, mWord), (.tok .field, mField)] := by rfl
  rw [e]
  apply bestMatch_pick
  · simp [mDate, h]
  · intro p hp j hj
    rcases List.mem_append.mp hp with hp | hp
    · rw [lit_rules_digit rfl ha p hp] at hj; cases hj
    · simp only [List.mem_cons, List.not_mem_nil, or_false] at hp
      rcases hp with rfl | rfl | rfl
      · simp only [date_mDecimal ha hb hc hd] at hj; cases hj
      · simp only [date_mVersion ha hb] at hj; cases hj
      · simp only [date_mInteger ha hb hc hd, Option.some.injEq] at hj; omega
  · intro p hp j hj
    simp only [List.mem_cons, List.not_mem_nil, or_false] at hp
    rcases hp with rfl | rfl | rfl | rfl
    · simp only [ht] at hj; cases hj
    · simp only [mWs_digit (s := a :: b :: c :: d :: '-' :: t) rfl ha] at hj; cases hj
    · simp only [mWord_digit (s := a :: b :: c :: d :: '-' :: t) rfl ha] at hj; cases hj
    · simp only [date_mField ha hb hc hd, Option.some.injEq] at hj; omega

theorem bestMatch_datetime {s : JStr} (h : mPat j!"dddd-dd-dd dd:dd:dd" s = true) :
    bestMatch s lexRules = some (.tok .datetime, 19) := by
  have hD : mPat j!"dddd-dd-dd" s = true := by
    have hlen : 10 ≤ s.length := le_trans (by simp) (mPat_length h)
    have hs := List.take_append_drop 10 s
    have hl : (j!"dddd-dd-dd").length = (s.take 10).length := by
      rw [List.length_take]; simp; omega
    have h2 := mPat_split (p := j!"dddd-dd-dd") (q := j!" dd:dd:dd") (s := s.take 10)
      (r := s.drop 10) hl
    rw [hs] at h2
    have h3 : mPat j!"dddd-dd-dd" (s.take 10) = true := by
      have : mPat (j!"dddd-dd-dd" ++ j!" dd:dd:dd") s = true := h
      rw [h2, Bool.and_eq_true] at this
      exact this.1
    have := mPat_append (r := s.drop 10) h3
    rwa [hs] at this
  obtain ⟨a, b, c, d, t, ha, hb, hc, hd, rfl⟩ := date_rules hD
  have e : lexRules = (lexRules.take 34 ++ [(.tok .decimal, mDecimal), (.tok .version, mVersion),
    (.tok .integer, mInteger), (.tok .date, mDate)]) ++ (.tok .datetime, mDateTime) :: [(.ws, mWs),
    (.tok .word, mWord), (.tok .field, mField)] := by rfl
  rw [e]
  apply bestMatch_pick
  · simp [mDateTime, h]
  · intro p hp j hj
    rcases List.mem_append.mp hp with hp | hp
    · rw [lit_rules_digit rfl ha p hp] at hj; cases hj
    · simp only [List.mem_cons, List.not_mem_nil, or_false] at hp
      rcases hp with rfl | rfl | rfl | rfl
      · simp only [date_mDecimal ha hb hc hd] at hj; cases hj
      · simp only [date_mVersion ha hb] at hj; cases hj
      · simp only [date_mInteger ha hb hc hd, Option.some.injEq] at hj; omega
      · simp only [mDate, hD, if_true, Option.some.injEq] at hj; omega
  · intro p hp j hj
    simp only [List.mem_cons, List.not_mem_nil, or_false] at hp
    rcases hp with rfl | rfl | rfl
    · simp only [mWs_digit (s := a :: b :: c :: d :: '-' :: t) rfl ha] at hj; cases hj
    · simp only [mWord_digit (s := a :: b :: c :: d :: '-' :: t) rfl ha] at hj; cases hj
    · simp only [date_mField ha hb hc hd, Option.some.injEq] at hj; omega

/-! ### Quoted strings -/

theorem bestMatch_word_rule {s : JStr} {n : Nat} (h : mWord s = some n) :
    bestMatch s lexRules = some (.tok .word, n) := by
  have e : lexRules = lexRules.take 40 ++ (.tok .word, mWord) :: [(.tok .field, mField)] := by rfl
  have key : (∀ p ∈ lexRules.take 40, p.2 s = none) ∧ mField s = none := by
    cases s with
    | nil => cases h
    | cons q r =>
      simp only [mWord] at h
      split at h
      · rename_i hq
        rcases hq with rfl | rfl
        · refine ⟨?_, rfl⟩
          unfold lexRules
          simp only [List.take_succ_cons, List.take_zero, List.forall_mem_cons]
          refine ⟨?_, ?_, ?_, ?_, ?_, ?_, ?_, ?_, ?_, ?_, ?_, ?_, ?_, ?_, ?_, ?_,
            ?_, ?_, ?_, ?_, ?_, ?_, ?_, ?_, ?_, ?_, ?_, ?_, ?_, ?_, ?_, ?_, ?_, ?_, ?_, ?_, ?_, ?_, ?_, ?_,
            ?_⟩
          all_goals first
            | rfl
            | (intro p hp; cases hp)
        · refine ⟨?_, rfl⟩
          unfold lexRules
          simp only [List.take_succ_cons, List.take_zero, List.forall_mem_cons]
          refine ⟨?_, ?_, ?_, ?_, ?_, ?_, ?_, ?_, ?_, ?_, ?_, ?_, ?_, ?_, ?_, ?_,
            ?_, ?_, ?_, ?_, ?_, ?_, ?_, ?_, ?_, ?_, ?_, ?_, ?_, ?_, ?_, ?_, ?_, ?_, ?_, ?_, ?_, ?_, ?_, ?_,
            ?_⟩
          all_goals first
            | rfl
            | (intro p hp; cases hp)
      · cases h
  rw [e]
  apply bestMatch_pick h
  · intro p hp j hj
    rw [key.1 p hp] at hj; cases hj
  · intro p hp j hj
    simp only [List.mem_cons, List.not_mem_nil, or_false] at hp
    subst hp
    simp only [key.2] at hj; cases hj

theorem mWord_append {s r : JStr} {n : Nat} (h : mWord s = some n) : mWord (s ++ r) = some n := by
  cases s with
  | nil => cases h
  | cons q t =>
    simp only [mWord, List.cons_append] at h ⊢
    split at h
    · rename_i hq
      rw [if_pos hq]
      split at h
      · rename_i hlt
        have e : (t ++ r).takeWhile (· ≠ q) = t.takeWhile (· ≠ q) := by
          have : ∃ x, x ∈ t ∧ ¬ (x ≠ q) := by
            by_contra hcon
            push Not at hcon
            have : t.takeWhile (· ≠ q) = t := by
              apply all_takeWhile
              rw [List.all_eq_true]
              intro x hx
              simpa using hcon x hx
            rw [this] at hlt
            exact absurd hlt (lt_irrefl _)
          clear hlt h
          induction t with
          | nil => obtain ⟨x, hx, _⟩ := this; cases hx
          | cons y ys ih =>
            simp only [List.cons_append, List.takeWhile_cons]
            by_cases hy : y = q
            · subst hy; simp
            · have : ∃ x, x ∈ ys ∧ ¬ (x ≠ q) := by
                obtain ⟨x, hx, hxq⟩ := this
                rcases List.mem_cons.mp hx with rfl | hx
                · exact absurd hy hxq
                · exact ⟨x, hx, hxq⟩
              simp only [ih this]
        rw [e, if_pos (by simp only [List.length_append]; omega)]
        exact h
      · cases h
    · cases h

/-! ### The main lemma -/

theorem timeAhead_mDateTime {s r : JStr} (hs : s.length = 10) (h : timeAhead r = false) :
    mDateTime (s ++ r) = none := by
  have h2 := mPat_split (p := j!"dddd-dd-dd") (q := j!" dd:dd:dd") (s := s) (r := r) (by simp [hs])
  have h3 : mPat j!"dddd-dd-dd dd:dd:dd" (s ++ r) = false := by
    have e : mPat j!"dddd-dd-dd dd:dd:dd" (s ++ r) = mPat (j!"dddd-dd-dd" ++ j!" dd:dd:dd") (s ++ r) := rfl
    rw [e, h2]
    simp only [timeAhead] at h
    simp [h]
  simp [mDateTime, h3]

theorem mDate_word_follow {w r : JStr} (ha : w.all isFieldChar = true) (hr : NoField r)
    (h4 : (digits4 w && r.head? == some '-') = false) : mPat j!"dddd-dd-dd" (w ++ r) = false := by
  cases hm : mPat j!"dddd-dd-dd" (w ++ r) with
  | false => rfl
  | true =>
    exfalso
    obtain ⟨a, b, c, d, t, da, db, dc, dd, e⟩ := date_rules hm
    have hdash : isFieldChar '-' = false := rfl
    match w, ha with
    | [], _ =>
      simp only [List.nil_append] at e; subst e
      simp only [NoField, List.head?_cons, Option.all_some, Bool.not_eq_true'] at hr
      rw [field_of_digit da] at hr; cases hr
    | [x], _ =>
      simp only [List.cons_append, List.nil_append, List.cons.injEq] at e
      obtain ⟨_, rfl⟩ := e
      simp only [NoField, List.head?_cons, Option.all_some, Bool.not_eq_true'] at hr
      rw [field_of_digit db] at hr; cases hr
    | [x, y], _ =>
      simp only [List.cons_append, List.nil_append, List.cons.injEq] at e
      obtain ⟨_, _, rfl⟩ := e
      simp only [NoField, List.head?_cons, Option.all_some, Bool.not_eq_true'] at hr
      rw [field_of_digit dc] at hr; cases hr
    | [x, y, z], _ =>
      simp only [List.cons_append, List.nil_append, List.cons.injEq] at e
      obtain ⟨_, _, _, rfl⟩ := e
      simp only [NoField, List.head?_cons, Option.all_some, Bool.not_eq_true'] at hr
      rw [field_of_digit dd] at hr; cases hr
    | [x, y, z, u], _ =>
      simp only [List.cons_append, List.nil_append, List.cons.injEq] at e
      obtain ⟨rfl, rfl, rfl, rfl, rfl⟩ := e
      simp [digits4, da, db, dc, dd] at h4
    | x :: y :: z :: u :: v :: ws, ha =>
      simp only [List.cons_append, List.cons.injEq] at e
      obtain ⟨rfl, rfl, rfl, rfl, rfl, _⟩ := e
      simp [hdash] at ha

theorem mPat_prefix {p q s : JStr} (h : mPat (p ++ q) s = true) : mPat p s = true := by
  induction p generalizing s with
  | nil => rfl
  | cons c cs ih =>
    cases s with
    | nil => simp [mPat] at h
    | cons d ds =>
      simp only [List.cons_append, mPat, Bool.and_eq_true] at h ⊢
      exact ⟨h.1, ih h.2⟩

theorem best_of_word {w r : JStr} {k : LexKind} (hw : w ≠ []) (ha : w.all isFieldChar = true)
    (hr : NoField r) (h4 : (digits4 w && r.head? == some '-') = false)
    (hb : bestMatch w lexRules = some (k, w.length)) :
    bestMatch (w ++ r) lexRules = some (k, w.length) := by
  have hm := mDate_word_follow ha hr h4
  rw [bestMatch_word hw ha hr, hb]
  · simp [mDate, hm]
  · have : mPat j!"dddd-dd-dd dd:dd:dd" (w ++ r) = false := by
      cases e : mPat j!"dddd-dd-dd dd:dd:dd" (w ++ r) with
      | false => rfl
      | true =>
        have := mPat_prefix (p := j!"dddd-dd-dd") (q := j!" dd:dd:dd") e
        rw [hm] at this; cases this
    simp [mDateTime, this]

/-- Operators and punctuation that nothing can extend. -/
theorem best_punct (r : JStr) :
    bestMatch (j!"," ++ r) lexRules = some (.tok .comma, 1) ∧
    bestMatch (j!"+" ++ r) lexRules = some (.tok (.arith .add), 1) ∧
    bestMatch (j!"-" ++ r) lexRules = some (.tok (.arith .sub), 1) ∧
    bestMatch (j!"*" ++ r) lexRules = some (.tok (.arith .mul), 1) ∧
    bestMatch (j!"/" ++ r) lexRules = some (.tok (.arith .div), 1) ∧
    bestMatch (j!"%" ++ r) lexRules = some (.tok (.arith .mod), 1) ∧
    bestMatch (j!"^" ++ r) lexRules = some (.tok (.arith .exp), 1) ∧
    bestMatch (j!"!=" ++ r) lexRules = some (.tok (.cmp .ne), 2) ∧
    bestMatch (j!">=" ++ r) lexRules = some (.tok (.cmp .ge), 2) ∧
    bestMatch (j!"<=" ++ r) lexRules = some (.tok (.cmp .le), 2) ∧
    bestMatch (j!"=" ++ r) lexRules = some (.tok (.cmp .eq), 1) ∧
    bestMatch (j!"(" ++ r) lexRules = some (.tok .lparen, 1) ∧
    bestMatch (j!")" ++ r) lexRules = some (.tok .rparen, 1) ∧
    bestMatch (j!"&&" ++ r) lexRules = some (.tok .kAnd, 2) ∧
    bestMatch (j!"||" ++ r) lexRules = some (.tok .kOr, 2) := by
  refine ⟨?_, ?_, ?_, ?_, ?_, ?_, ?_, ?_, ?_, ?_, ?_, ?_, ?_, ?_, ?_⟩ <;> krfl

theorem best_gt {r : JStr} (h : r.head? ≠ some '=') :
    bestMatch (j!">" ++ r) lexRules = some (.tok (.cmp .gt), 1) := by
  cases r with
  | nil => krfl
  | cons c cs =>
    have hc : ('=' == c) = false := by
      simp only [List.head?_cons, ne_eq, Option.some.injEq] at h
      simp; exact fun e => h e.symm
    have e : mLit j!">=" (j!">" ++ c :: cs) = none := by
      simp [mLit, List.isPrefixOf, hc]
    have e2 : lexRules = lexRules.take 27 ++ (.tok (.cmp .gt), mLit j!">") ::
      ((.tok (.cmp .ge), mLit j!">=") :: lexRules.drop 29) := by rfl
    rw [e2]
    apply bestMatch_pick
    · rfl
    · have key : ∀ p ∈ lexRules.take 27, p.2 (j!">" ++ c :: cs) = none := by
        unfold lexRules
        simp only [List.take_succ_cons, List.take_zero, List.forall_mem_cons]
        refine ⟨?_, ?_, ?_, ?_, ?_, ?_, ?_, ?_, ?_, ?_, ?_, ?_, ?_, ?_, ?_, ?_,
            ?_, ?_, ?_, ?_, ?_, ?_, ?_, ?_, ?_, ?_, ?_, ?_⟩
        all_goals first
          | rfl
          | (intro p hp; cases hp)
      intro p hp j hj
      rw [key p hp] at hj; cases hj
    · have key : ∀ p ∈ lexRules.drop 29, p.2 (j!">" ++ c :: cs) = none := by
        unfold lexRules
        simp only [List.drop_succ_cons, List.drop_zero, List.forall_mem_cons]
        refine ⟨?_, ?_, ?_, ?_, ?_, ?_, ?_, ?_, ?_, ?_, ?_, ?_, ?_, ?_⟩
        all_goals first
          | rfl
          | (intro p hp; cases hp)
      intro p hp j hj
      rcases List.mem_cons.mp hp with rfl | hp
      · simp only [e] at hj; cases hj
      · rw [key p hp] at hj; cases hj

theorem best_lt {r : JStr} (h : r.head? ≠ some '=') :
    bestMatch (j!"<" ++ r) lexRules = some (.tok (.cmp .lt), 1) := by
  cases r with
  | nil => krfl
  | cons c cs =>
    have hc : ('=' == c) = false := by
      simp only [List.head?_cons, ne_eq, Option.some.injEq] at h
      simp; exact fun e => h e.symm
    have e : mLit j!"<=" (j!"<" ++ c :: cs) = none := by
      simp [mLit, List.isPrefixOf, hc]
    have e2 : lexRules = lexRules.take 29 ++ (.tok (.cmp .lt), mLit j!"<") ::
      ((.tok (.cmp .le), mLit j!"<=") :: lexRules.drop 31) := by rfl
    rw [e2]
    apply bestMatch_pick
    · rfl
    · have key : ∀ p ∈ lexRules.take 29, p.2 (j!"<" ++ c :: cs) = none := by
        unfold lexRules
        simp only [List.take_succ_cons, List.take_zero, List.forall_mem_cons]
        refine ⟨?_, ?_, ?_, ?_, ?_, ?_, ?_, ?_, ?_, ?_, ?_, ?_, ?_, ?_, ?_, ?_,
            ?_, ?_, ?_, ?_, ?_, ?_, ?_, ?_, ?_, ?_, ?_, ?_, ?_, ?_⟩
        all_goals first
          | rfl
          | (intro p hp; cases hp)
      intro p hp j hj
      rw [key p hp] at hj; cases hj
    · have key : ∀ p ∈ lexRules.drop 31, p.2 (j!"<" ++ c :: cs) = none := by
        unfold lexRules
        simp only [List.drop_succ_cons, List.drop_zero, List.forall_mem_cons]
        refine ⟨?_, ?_, ?_, ?_, ?_, ?_, ?_, ?_, ?_, ?_, ?_, ?_⟩
        all_goals first
          | rfl
          | (intro p hp; cases hp)
      intro p hp j hj
      rcases List.mem_cons.mp hp with rfl | hp
      · simp only [e] at hj; cases hj
      · rw [key p hp] at hj; cases hj

/-- What a token's kind says about its text. -/
inductive TokShape : TK → JStr → Prop where
  | word {k : TK} {s : JStr} (h : s.all isFieldChar = true) : TokShape k s
  | date {s : JStr} (h : mPat j!"dddd-dd-dd" s = true) : TokShape .date s
  | datetime {s : JStr} (h : mPat j!"dddd-dd-dd dd:dd:dd" s = true) : TokShape .datetime s
  | quoted {s : JStr} (h : mWord s = some s.length) : TokShape .word s
  | comma : TokShape .comma j!","
  | add : TokShape (.arith .add) j!"+"
  | sub : TokShape (.arith .sub) j!"-"
  | mul : TokShape (.arith .mul) j!"*"
  | div : TokShape (.arith .div) j!"/"
  | mod : TokShape (.arith .mod) j!"%"
  | exp : TokShape (.arith .exp) j!"^"
  | ne : TokShape (.cmp .ne) j!"!="
  | gt : TokShape (.cmp .gt) j!">"
  | ge : TokShape (.cmp .ge) j!">="
  | lt : TokShape (.cmp .lt) j!"<"
  | le : TokShape (.cmp .le) j!"<="
  | eq : TokShape (.cmp .eq) j!"="
  | lparen : TokShape .lparen j!"("
  | rparen : TokShape .rparen j!")"
  | and_ : TokShape .kAnd j!"&&"
  | or_ : TokShape .kOr j!"||"

/-- The shape a rule gives to a text it matches completely. -/
def RuleShape (p : LexKind × (JStr → Option Nat)) : Prop :=
  ∀ s k, p.1 = .tok k → p.2 s = some s.length → TokShape k s ∧
    (s.all isFieldChar = true → glueOk ⟨k, s⟩ = fun r => glueOk ⟨.field, s⟩ r)

theorem rule_kw {k : TK} {l1 l2 : JStr} (h1 : l1.all isFieldChar = true) (h2 : l2.all isFieldChar = true)
    (hg : ∀ s, glueOk ⟨k, s⟩ = fun r => glueOk ⟨.field, s⟩ r) : RuleShape (.tok k, mLit2 l1 l2) := by
  intro s k' hk h
  simp only [LexKind.tok.injEq] at hk; subst hk
  rcases mLit2_full h with rfl | rfl
  · exact ⟨.word h1, fun _ => hg _⟩
  · exact ⟨.word h2, fun _ => hg _⟩

theorem rule_lit {k : TK} {l : JStr} (h1 : TokShape k l) (h2 : l.all isFieldChar = false) :
    RuleShape (.tok k, mLit l) := by
  intro s k' hk h
  simp only [LexKind.tok.injEq] at hk; subst hk
  rw [mLit_full h]
  refine ⟨h1, fun e => ?_⟩
  rw [h2] at e; cases e

theorem lexRules_shape : ∀ p ∈ lexRules, RuleShape p := by
  unfold lexRules
  simp only [List.forall_mem_cons]
  refine ⟨rule_lit .comma rfl, rule_kw rfl rfl (fun _ => rfl), rule_kw rfl rfl (fun _ => rfl),
    ?and, ?or, rule_kw rfl rfl (fun _ => rfl), rule_kw rfl rfl (fun _ => rfl),
    rule_kw rfl rfl (fun _ => rfl), rule_kw rfl rfl (fun _ => rfl), rule_kw rfl rfl (fun _ => rfl),
    rule_kw rfl rfl (fun _ => rfl), rule_kw rfl rfl (fun _ => rfl), rule_kw rfl rfl (fun _ => rfl),
    rule_kw rfl rfl (fun _ => rfl), rule_kw rfl rfl (fun _ => rfl), rule_kw rfl rfl (fun _ => rfl),
    rule_kw rfl rfl (fun _ => rfl), rule_kw rfl rfl (fun _ => rfl), rule_kw rfl rfl (fun _ => rfl),
    rule_kw rfl rfl (fun _ => rfl),
    rule_lit .add rfl, rule_lit .sub rfl, rule_lit .mul rfl, rule_lit .div rfl, rule_lit .mod rfl,
    rule_lit .exp rfl, rule_lit .ne rfl, rule_lit .gt rfl, rule_lit .ge rfl, rule_lit .lt rfl,
    rule_lit .le rfl, rule_lit .eq rfl, rule_lit .lparen rfl, rule_lit .rparen rfl,
    ?dec, ?ver, ?int, ?date, ?datetime, ?ws, ?word, ?field, ?nil⟩
  case and =>
    intro s k' hk h
    simp only [LexKind.tok.injEq] at hk; subst hk
    simp only at h
    split at h
    · rename_i hp; injection h with h
      rw [isPrefixOf_full hp (by simpa using h)]
      exact ⟨.word rfl, fun _ => rfl⟩
    · rcases mLit2_full h with rfl | rfl
      · exact ⟨.word rfl, fun _ => rfl⟩
      · exact ⟨.and_, fun e => by cases e⟩
  case or =>
    intro s k' hk h
    simp only [LexKind.tok.injEq] at hk; subst hk
    simp only at h
    split at h
    · rename_i hp; injection h with h
      rw [isPrefixOf_full hp (by simpa using h)]
      exact ⟨.word rfl, fun _ => rfl⟩
    · rcases mLit2_full h with rfl | rfl
      · exact ⟨.word rfl, fun _ => rfl⟩
      · exact ⟨.or_, fun e => by cases e⟩
  case dec =>
    intro s k' hk h
    simp only [LexKind.tok.injEq] at hk; subst hk
    exact ⟨.word (mDecimal_full h), fun _ => rfl⟩
  case ver =>
    intro s k' hk h
    simp only [LexKind.tok.injEq] at hk; subst hk
    exact ⟨.word (mVersion_full h), fun _ => rfl⟩
  case int =>
    intro s k' hk h
    simp only [LexKind.tok.injEq] at hk; subst hk
    exact ⟨.word (all_field_of_digits (nz_full h)), fun _ => rfl⟩
  case date =>
    intro s k' hk h
    simp only [LexKind.tok.injEq] at hk; subst hk
    have hm : mPat j!"dddd-dd-dd" s = true := by
      simp only [mDate] at h
      split at h
      · assumption
      · cases h
    refine ⟨.date hm, fun e => ?_⟩
    have := mPat_field (p := j!"dddd-dd-dd") (i := 4) rfl e
    rw [hm] at this; cases this
  case datetime =>
    intro s k' hk h
    simp only [LexKind.tok.injEq] at hk; subst hk
    have hm : mPat j!"dddd-dd-dd dd:dd:dd" s = true := by
      simp only [mDateTime] at h
      split at h
      · assumption
      · cases h
    refine ⟨.datetime hm, fun e => ?_⟩
    have := mPat_field (p := j!"dddd-dd-dd dd:dd:dd") (i := 4) rfl e
    rw [hm] at this; cases this
  case ws => intro s k' hk; cases hk
  case word =>
    intro s k' hk h
    simp only [LexKind.tok.injEq] at hk; subst hk
    refine ⟨.quoted h, fun e => ?_⟩
    have hne : s ≠ [] := by intro e0; subst e0; cases h
    have := mWord_word (r := []) hne e
    rw [List.append_nil] at this
    simp only at h
    rw [this] at h; cases h
  case field =>
    intro s k' hk h
    simp only [LexKind.tok.injEq] at hk; subst hk
    exact ⟨.word (nz_full h), fun _ => rfl⟩
  case nil => intro p hp; cases hp

theorem mDate_full {s : JStr} (h : mPat j!"dddd-dd-dd" s = true)
    (hb : bestMatch s lexRules = some (.tok .date, s.length)) : s.length = 10 := by
  obtain ⟨p, hp, hk, hm⟩ := bestMatch_mem hb
  by_cases ht : mDateTime s = none
  · rw [bestMatch_date h ht] at hb
    simp only [Option.some.injEq, Prod.mk.injEq] at hb
    exact hb.2.symm
  · have : mPat j!"dddd-dd-dd dd:dd:dd" s = true := by
      simp only [mDateTime] at ht
      split at ht
      · assumption
      · exact absurd rfl ht
    rw [bestMatch_datetime this] at hb
    simp at hb

theorem best_append {t : Token} {r : JStr} (ht : ValidTok t) (hg : glueOk t r = true) :
    bestMatch (t.text ++ r) lexRules = some (.tok t.kind, t.text.length) := by
  obtain ⟨k, s⟩ := t
  obtain ⟨hne, hb⟩ := ht
  simp only at hne hb hg ⊢
  obtain ⟨p, hp, hk, hm⟩ := bestMatch_mem hb
  obtain ⟨hs, hgl⟩ := lexRules_shape p hp s k hk hm
  cases hs with
  | word h =>
    rw [hgl h] at hg
    simp only [glueOk, h, Bool.not_true, Bool.false_or, Bool.and_eq_true, Bool.not_eq_true'] at hg
    exact best_of_word hne h hg.1 hg.2 hb
  | date h =>
    simp only [glueOk, Bool.not_eq_true'] at hg
    have hl := mDate_full h hb
    rw [bestMatch_date (mPat_append h) (timeAhead_mDateTime hl hg), hl]
  | datetime h =>
    rw [bestMatch_datetime (mPat_append h)]
    rw [bestMatch_datetime h] at hb
    exact hb
  | quoted h => exact bestMatch_word_rule (mWord_append h)
  | comma => exact (best_punct r).1
  | add => exact (best_punct r).2.1
  | sub => exact (best_punct r).2.2.1
  | mul => exact (best_punct r).2.2.2.1
  | div => exact (best_punct r).2.2.2.2.1
  | mod => exact (best_punct r).2.2.2.2.2.1
  | exp => exact (best_punct r).2.2.2.2.2.2.1
  | ne => exact (best_punct r).2.2.2.2.2.2.2.1
  | ge => exact (best_punct r).2.2.2.2.2.2.2.2.1
  | le => exact (best_punct r).2.2.2.2.2.2.2.2.2.1
  | eq => exact (best_punct r).2.2.2.2.2.2.2.2.2.2.1
  | lparen => exact (best_punct r).2.2.2.2.2.2.2.2.2.2.2.1
  | rparen => exact (best_punct r).2.2.2.2.2.2.2.2.2.2.2.2.1
  | and_ => exact (best_punct r).2.2.2.2.2.2.2.2.2.2.2.2.2.1
  | or_ => exact (best_punct r).2.2.2.2.2.2.2.2.2.2.2.2.2.2
  | gt => exact best_gt (by simpa [glueOk] using hg)
  | lt => exact best_lt (by simpa [glueOk] using hg)

end BoolParser
