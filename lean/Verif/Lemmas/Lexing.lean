import Verif.Model.Lexer
import Verif.Lemmas.Digits
/-!
# Longest match, rule by rule
-/

namespace BoolParser

/-- The next character, if any, does not belong to `FIELD`. -/
def NoField (r : JStr) : Prop := r.head?.all (fun c => !isFieldChar c) = true

theorem NoField.nil : NoField [] := rfl
theorem NoField.cons {c : Char} {r : JStr} (h : isFieldChar c = false) : NoField (c :: r) := by
  simp [NoField, h]

theorem field_of_digit {c : Char} (h : isDigit c = true) : isFieldChar c = true := by
  simp [isFieldChar, h]

theorem all_field_of_digits {w : JStr} (h : w.all isDigit = true) : w.all isFieldChar = true := by
  rw [List.all_eq_true] at *
  exact fun c hc => field_of_digit (h c hc)

/-! ### `bestMatch` -/

theorem bestMatch_congr {s s' : JStr} {rs : List (LexKind × (JStr → Option Nat))}
    (h : ∀ p ∈ rs, p.2 s = p.2 s') : bestMatch s rs = bestMatch s' rs := by
  induction rs with
  | nil => rfl
  | cons p ps ih =>
    obtain ⟨k, m⟩ := p
    have h1 : m s = m s' := h (k, m) (by simp)
    have h2 := ih (fun p hp => h p (by simp [hp]))
    simp only [bestMatch, h1, h2]

theorem bestMatch_le {s : JStr} {n : Nat} {rs : List (LexKind × (JStr → Option Nat))}
    (h : ∀ p ∈ rs, ∀ j, p.2 s = some j → j ≤ n) :
    ∀ k j, bestMatch s rs = some (k, j) → j ≤ n := by
  induction rs with
  | nil => intro k j e; simp [bestMatch] at e
  | cons p ps ih =>
    obtain ⟨k0, m⟩ := p
    have ih' := ih (fun p hp => h p (by simp [hp]))
    have h0 := h (k0, m) (by simp)
    intro k j e
    simp only [bestMatch] at e
    split at e
    · exact ih' _ _ e
    · rename_i n1 e1 e2
      simp only [Option.some.injEq, Prod.mk.injEq] at e
      obtain ⟨rfl, rfl⟩ := e; exact h0 _ e1
    · rename_i n1 k' n' e1 e2
      split at e
      · simp only [Option.some.injEq, Prod.mk.injEq] at e
        obtain ⟨rfl, rfl⟩ := e; exact ih' _ _ e2
      · simp only [Option.some.injEq, Prod.mk.injEq] at e
        obtain ⟨rfl, rfl⟩ := e; exact h0 _ e1

/-- The rule that matches longest, and before which every rule matches less, is picked. -/
theorem bestMatch_pick {s : JStr} {n : Nat} {k : LexKind} {m : JStr → Option Nat}
    {pre post : List (LexKind × (JStr → Option Nat))} (hm : m s = some n)
    (hpre : ∀ p ∈ pre, ∀ j, p.2 s = some j → j < n)
    (hpost : ∀ p ∈ post, ∀ j, p.2 s = some j → j ≤ n) :
    bestMatch s (pre ++ (k, m) :: post) = some (k, n) := by
  induction pre with
  | nil =>
    have hp := bestMatch_le hpost
    simp only [List.nil_append, bestMatch, hm]
    cases e : bestMatch s post with
    | none => rfl
    | some q =>
      obtain ⟨k', n'⟩ := q
      have := hp k' n' e
      simp only
      rw [if_neg (by omega)]
  | cons p ps ih =>
    obtain ⟨k0, m0⟩ := p
    have h0 := hpre (k0, m0) (by simp)
    have ih' := ih (fun p hp => hpre p (by simp [hp]))
    simp only [List.cons_append, bestMatch, ih']
    cases e : m0 s with
    | none => rfl
    | some j =>
      simp only
      rw [if_pos (h0 j e)]

/-! ### Matchers on a word -/

theorem takeWhile_le {p : Char → Bool} (s : JStr) : (s.takeWhile p).length ≤ s.length :=
  (List.takeWhile_prefix p).length_le

theorem isPrefixOf_field {l w r : JStr} (hl : l.all isFieldChar = true) (hr : NoField r) :
    l.isPrefixOf (w ++ r) = l.isPrefixOf w := by
  induction l generalizing w with
  | nil => simp
  | cons c cs ih =>
    simp only [List.all_cons, Bool.and_eq_true] at hl
    cases w with
    | nil =>
      cases r with
      | nil => rfl
      | cons d ds =>
        simp only [NoField, List.head?_cons, Option.all_some, Bool.not_eq_true'] at hr
        have : c ≠ d := by intro e; subst e; rw [hl.1] at hr; cases hr
        simp [List.isPrefixOf, this]
    | cons d ds => simp [List.isPrefixOf, ih hl.2]

/-- Literals to which `mLit_word` applies. -/
def litOk (l : JStr) : Bool :=
  match l with
  | [] => false
  | c :: cs => (c :: cs).all isFieldChar || !isFieldChar c

theorem mLit_word {l w r : JStr} (hl : litOk l = true) (hw : w ≠ []) (ha : w.all isFieldChar = true)
    (hr : NoField r) : mLit l (w ++ r) = mLit l w := by
  unfold mLit
  cases l with
  | nil => cases hl
  | cons c cs =>
    simp only [litOk, Bool.or_eq_true] at hl
    rcases hl with hl | hl
    · rw [isPrefixOf_field hl hr]
    · cases w with
      | nil => exact absurd rfl hw
      | cons d ds =>
        simp only [List.all_cons, Bool.and_eq_true] at ha
        have : c ≠ d := by intro e; subst e; rw [ha.1] at hl; cases hl
        simp [List.isPrefixOf, this]

theorem mLit2_word {l1 l2 w r : JStr} (h1 : litOk l1 = true) (h2 : litOk l2 = true) (hw : w ≠ [])
    (ha : w.all isFieldChar = true) (hr : NoField r) : mLit2 l1 l2 (w ++ r) = mLit2 l1 l2 w := by
  have e1 := mLit_word h1 hw ha hr
  have e2 := mLit_word h2 hw ha hr
  unfold mLit2
  unfold mLit at e1
  rw [e2]
  by_cases a : l1.isPrefixOf (w ++ r) = true <;> by_cases b : l1.isPrefixOf w = true <;>
    simp_all

theorem NoField.noDigit {r : JStr} (h : NoField r) : r.head?.all (fun c => !isDigit c) = true := by
  cases r with
  | nil => rfl
  | cons c cs =>
    simp only [NoField, List.head?_cons, Option.all_some, Bool.not_eq_true'] at *
    cases e : isDigit c with
    | false => rfl
    | true => rw [field_of_digit e] at h; cases h

/-- `takeWhile` of a narrower class does not reach behind the word. -/
theorem takeWhile_word {p : Char → Bool} {w r : JStr} (hr : r.head?.all (fun c => !p c) = true) :
    (w ++ r).takeWhile p = w.takeWhile p := by
  induction w with
  | nil =>
    cases r with
    | nil => rfl
    | cons c cs => simp at hr; simp [hr]
  | cons c cs ih =>
    simp only [List.cons_append, List.takeWhile_cons, ih]

theorem mInteger_word {w r : JStr} (hr : NoField r) : mInteger (w ++ r) = mInteger w := by
  unfold mInteger; rw [takeWhile_word hr.noDigit]

theorem NoField.noDot {r : JStr} {t : JStr} (h : NoField r) : r ≠ '.' :: t := by
  intro e; subst e; cases h

theorem drop_word {w r : JStr} {n : Nat} (h : n ≤ w.length) : (w ++ r).drop n = w.drop n ++ r := by
  rw [List.drop_append_of_le_length h]

theorem mDecimal_word {w r : JStr} (hr : NoField r) : mDecimal (w ++ r) = mDecimal w := by
  simp only [mDecimal]
  rw [takeWhile_word hr.noDigit, drop_word (takeWhile_le _)]
  by_cases h0 : (w.takeWhile isDigit).length = 0
  · simp [h0]
  · simp only [h0, if_false]
    cases e : w.drop (w.takeWhile isDigit).length with
    | nil =>
      simp only [List.nil_append]
      cases r with
      | nil => rfl
      | cons c cs =>
        split
        · rename_i heq; exact absurd heq hr.noDot
        · rfl
    | cons c cs =>
      simp only [List.cons_append]
      by_cases hc : c = '.'
      · subst hc
        simp only [takeWhile_word hr.noDigit]
      · split
        · rename_i heq; injection heq with h1 _; exact absurd h1 hc
        · split
          · rename_i heq; injection heq with h1 _; exact absurd h1 hc
          · rfl

theorem dotInts_word {w r : JStr} (hr : NoField r) (f : Nat) :
    dotInts f (w ++ r) = dotInts f w := by
  induction f generalizing w with
  | zero => rfl
  | succ f ih =>
    cases w with
    | nil =>
      cases r with
      | nil => rfl
      | cons c cs =>
        simp only [List.nil_append, dotInts]
        split
        · rename_i heq; exact absurd heq hr.noDot
        · rfl
    | cons c cs =>
      by_cases hc : c = '.'
      · subst hc
        simp only [List.cons_append, dotInts]
        rw [takeWhile_word hr.noDigit, drop_word (takeWhile_le _), ih]
      · simp only [List.cons_append, dotInts]
        split
        · rename_i heq; injection heq with h1 _; exact absurd h1 hc
        · split
          · rename_i heq; injection heq with h1 _; exact absurd h1 hc
          · rfl

/-- Enough fuel. -/
theorem dotInts_fuel (f : Nat) (s : JStr) (h : s.length ≤ f) : dotInts f s = dotInts s.length s := by
  suffices ∀ n f (s : JStr), s.length ≤ f → s.length ≤ n → dotInts f s = dotInts n s from
    this _ _ _ h (le_refl _)
  intro n
  induction n with
  | zero =>
    intro f s hf hn
    have : s = [] := List.eq_nil_of_length_eq_zero (by omega)
    subst this
    cases f <;> rfl
  | succ n ih =>
    intro f s hf hn
    cases f with
    | zero =>
      have : s = [] := List.eq_nil_of_length_eq_zero (by omega)
      subst this; rfl
    | succ f =>
      cases s with
      | nil => rfl
      | cons c cs =>
        simp only [List.length_cons] at hf hn
        by_cases hc : c = '.'
        · subst hc
          simp only [dotInts]
          rw [ih f _ (by simp; omega) (by simp; omega)]
        · simp only [dotInts]
          split
          · rename_i heq; injection heq with h1 _; exact absurd h1 hc
          · rfl

theorem mVersion_word {w r : JStr} (hw : w ≠ []) (hr : NoField r) :
    mVersion (w ++ r) = mVersion w := by
  cases w with
  | nil => exact absurd rfl hw
  | cons c cs =>
    simp only [List.cons_append, mVersion]
    rw [dotInts_word hr, dotInts_fuel _ _ (by simp)]

theorem mWs_word {w r : JStr} (hw : w ≠ []) (ha : w.all isFieldChar = true) :
    mWs (w ++ r) = none := by
  cases w with
  | nil => exact absurd rfl hw
  | cons c cs =>
    simp only [List.all_cons, Bool.and_eq_true] at ha
    have : isWs c = false := by
      cases e : isWs c with
      | false => rfl
      | true =>
        simp only [isWs, Bool.or_eq_true, beq_iff_eq] at e
        have hh := ha.1
        rcases e with (((rfl | rfl) | rfl) | rfl) | e
        · cases hh
        · cases hh
        · cases hh
        · cases hh
        · simp only [isFieldChar, isDigit, e] at hh
          simp only [Bool.or_eq_true, beq_iff_eq] at hh
          rcases hh with (((h | h) | h) | rfl) | rfl
          · cases h
          · cases h
          · cases h
          · cases e
          · cases e
    simp [mWs, nz, this]

theorem mWord_word {w r : JStr} (hw : w ≠ []) (ha : w.all isFieldChar = true) :
    mWord (w ++ r) = none := by
  cases w with
  | nil => exact absurd rfl hw
  | cons c cs =>
    simp only [List.all_cons, Bool.and_eq_true] at ha
    have h1 : c ≠ '\'' := by intro e; subst e; cases ha.1
    have h2 : c ≠ '"' := by intro e; subst e; cases ha.1
    simp [mWord, h1, h2]

theorem mField_word {w r : JStr} (hr : NoField r) : mField (w ++ r) = mField w := by
  unfold mField; rw [takeWhile_word hr]

theorem mPat_field {p w : JStr} {i : Nat} (hi : p[i]? = some '-') (ha : w.all isFieldChar = true) :
    mPat p w = false := by
  induction p generalizing w i with
  | nil => simp at hi
  | cons c cs ih =>
    cases w with
    | nil => rfl
    | cons d ds =>
      simp only [List.all_cons, Bool.and_eq_true] at ha
      cases i with
      | zero =>
        simp only [List.getElem?_cons_zero, Option.some.injEq] at hi
        subst hi
        have : '-' ≠ d := by intro e; subst e; cases ha.1
        simp [mPat, this]
      | succ i =>
        simp only [List.getElem?_cons_succ] at hi
        simp [mPat, ih hi ha.2]

theorem mDate_word {w : JStr} (ha : w.all isFieldChar = true) : mDate w = none := by
  simp [mDate, mPat_field (p := j!"dddd-dd-dd") (i := 4) rfl ha]

theorem mDateTime_word {w : JStr} (ha : w.all isFieldChar = true) : mDateTime w = none := by
  simp [mDateTime, mPat_field (p := j!"dddd-dd-dd dd:dd:dd") (i := 4) rfl ha]

theorem mAnd_word {w r : JStr} (hw : w ≠ []) (ha : w.all isFieldChar = true) (hr : NoField r) :
    (fun s : JStr => if j!"AND".isPrefixOf s then some 3 else mLit2 j!"and" j!"&&" s) (w ++ r) =
    (fun s : JStr => if j!"AND".isPrefixOf s then some 3 else mLit2 j!"and" j!"&&" s) w := by
  simp only
  rw [isPrefixOf_field (by rfl) hr, mLit2_word (by rfl) (by rfl) hw ha hr]

theorem mOr_word {w r : JStr} (hw : w ≠ []) (ha : w.all isFieldChar = true) (hr : NoField r) :
    (fun s : JStr => if j!"OR".isPrefixOf s then some 2 else mLit2 j!"or" j!"||" s) (w ++ r) =
    (fun s : JStr => if j!"OR".isPrefixOf s then some 2 else mLit2 j!"or" j!"||" s) w := by
  simp only
  rw [isPrefixOf_field (by rfl) hr, mLit2_word (by rfl) (by rfl) hw ha hr]

/-- What follows a word of field characters does not influence its match, dates aside. -/
theorem bestMatch_word {w r : JStr} (hw : w ≠ []) (ha : w.all isFieldChar = true) (hr : NoField r)
    (hd : mDate (w ++ r) = none) (ht : mDateTime (w ++ r) = none) :
    bestMatch (w ++ r) lexRules = bestMatch w lexRules := by
  apply bestMatch_congr
  unfold lexRules
  simp only [List.forall_mem_cons]
  refine ⟨?_, ?_, ?_, mAnd_word hw ha hr, mOr_word hw ha hr, ?_, ?_, ?_, ?_, ?_, ?_, ?_, ?_, ?_, ?_, ?_,
    ?_, ?_, ?_, ?_, ?_, ?_, ?_, ?_, ?_, ?_, ?_, ?_, ?_, ?_, ?_, ?_, ?_, ?_, mDecimal_word hr,
    mVersion_word hw hr, mInteger_word hr, ?_, ?_, ?_, ?_, mField_word hr, ?_⟩
  all_goals first
    | exact mLit_word (by rfl) hw ha hr
    | exact mLit2_word (by rfl) (by rfl) hw ha hr
    | skip
  · rw [hd, mDate_word ha]
  · rw [ht, mDateTime_word ha]
  · have := mWs_word (r := []) hw ha
    rw [List.append_nil] at this
    rw [mWs_word hw ha, this]
  · have := mWord_word (r := []) hw ha
    rw [List.append_nil] at this
    rw [mWord_word hw ha, this]
  · intro p hp; cases hp

end BoolParser
