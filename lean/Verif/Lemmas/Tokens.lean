import Verif.Lemmas.Written
import Verif.Spec.Tokens
/-!
# The lexer cuts as described
-/

namespace BoolParser
open Spec

/-! ### Rules look at nothing but the text they match -/

/-- Cutting off what follows the match does not change the match. -/
def Shrinks (m : JStr → Option Nat) : Prop := ∀ s n, m s = some n → m (s.take n) = some n

/-- Writing something behind a full match keeps a match at least as long. -/
def Grows (m : JStr → Option Nat) : Prop :=
  ∀ s r, m s = some s.length → ∃ n, s.length ≤ n ∧ m (s ++ r) = some n

theorem takeWhile_take (p : Char → Bool) (s : JStr) :
    (s.take (s.takeWhile p).length).takeWhile p = s.takeWhile p := by
  rw [take_takeWhile]
  exact all_takeWhile (List.all_eq_true.mpr fun c hc => mem_takeWhile hc)

theorem nz_shrinks (p : Char → Bool) : Shrinks (fun s => nz (s.takeWhile p).length) := by
  intro s n h
  simp only [nz] at h ⊢
  split at h
  · cases h
  · injection h with h; subst h
    rename_i hn
    rw [takeWhile_take, if_neg hn]

theorem takeWhile_grow (p : Char → Bool) (s r : JStr) (h : s.all p = true) :
    s.length ≤ ((s ++ r).takeWhile p).length := by
  induction s with
  | nil => simp
  | cons c cs ih =>
    simp only [List.all_cons, Bool.and_eq_true] at h
    rw [List.cons_append, List.takeWhile_cons, if_pos h.1]
    simpa using ih h.2

theorem nz_grows (p : Char → Bool) : Grows (fun s => nz (s.takeWhile p).length) := by
  intro s r h
  have ha := nz_full h
  have hg := takeWhile_grow p s r ha
  refine ⟨((s ++ r).takeWhile p).length, hg, ?_⟩
  simp only [nz] at h ⊢
  split at h
  · cases h
  · rename_i hn
    injection h with h
    rw [if_neg (by omega)]

theorem isPrefixOf_take {l s : JStr} (h : l.isPrefixOf s = true) (n : Nat) (hn : l.length ≤ n) :
    l.isPrefixOf (s.take n) = true := by
  rw [List.isPrefixOf_iff_prefix] at *
  exact List.prefix_take_iff.mpr ⟨h, hn⟩

theorem isPrefixOf_untake {l s : JStr} {n : Nat} (h : l.isPrefixOf (s.take n) = true) :
    l.isPrefixOf s = true := by
  rw [List.isPrefixOf_iff_prefix] at *
  exact h.trans (List.take_prefix n s)

theorem isPrefixOf_append' {l s : JStr} (r : JStr) (h : l.isPrefixOf s = true) :
    l.isPrefixOf (s ++ r) = true := by
  rw [List.isPrefixOf_iff_prefix] at *
  exact h.trans (List.prefix_append s r)

theorem mLit_shrinks (l : JStr) : Shrinks (mLit l) := by
  intro s n h
  unfold mLit at h ⊢
  split at h
  · rename_i hp
    injection h with h; subst h
    rw [if_pos (isPrefixOf_take hp _ (Nat.le_refl _))]
  · cases h

theorem mLit_grows (l : JStr) : Grows (mLit l) := by
  intro s r h
  have hl := mLit_full h
  subst hl
  exact ⟨s.length, Nat.le_refl _, by unfold mLit; rw [if_pos (by simp)]⟩

theorem mLit2_shrinks (l1 l2 : JStr) : Shrinks (mLit2 l1 l2) := by
  intro s n h
  unfold mLit2 at h ⊢
  split at h
  · rename_i hp
    injection h with h; subst h
    rw [if_pos (isPrefixOf_take hp _ (Nat.le_refl _))]
  · rename_i hp
    rw [if_neg (fun h' => hp (isPrefixOf_untake h'))]
    exact mLit_shrinks l2 s n h

theorem mLit2_grows (l1 l2 : JStr)
    (h12 : l1.length = l2.length ∨ l1.isPrefixOf l2 = false) : Grows (mLit2 l1 l2) := by
  intro s r h
  rcases mLit2_full h with e | e
  · subst e
    exact ⟨s.length, Nat.le_refl _, by unfold mLit2; rw [if_pos (by simp)]⟩
  · subst e
    unfold mLit2
    by_cases hp : l1.isPrefixOf (s ++ r) = true
    · rcases h12 with h12 | h12
      · exact ⟨l1.length, by omega, by rw [if_pos hp]⟩
      · rw [List.isPrefixOf_iff_prefix] at hp
        have hs : s <+: s ++ r := List.prefix_append s r
        rcases Nat.le_total l1.length s.length with hle | hle
        · have := List.prefix_of_prefix_length_le hp hs hle
          rw [← List.isPrefixOf_iff_prefix, h12] at this; cases this
        · exact ⟨l1.length, hle, by rw [if_pos (List.isPrefixOf_iff_prefix.mpr hp)]⟩
    · rw [if_neg hp]
      exact ⟨s.length, Nat.le_refl _, by unfold mLit; rw [if_pos (by simp)]⟩


/-! ### Numbers -/

/-- After the digits comes no digit. -/
theorem drop_digits_head (s : JStr) (c : Char) (h : (s.drop (s.takeWhile isDigit).length).head? = some c) :
    isDigit c = false := by
  rw [drop_takeWhile] at h
  cases hd : s.dropWhile isDigit with
  | nil => rw [hd] at h; cases h
  | cons d ds =>
    rw [hd] at h
    injection h with h; subst h
    have := List.head?_dropWhile_not isDigit s
    rw [hd] at this
    simpa using this

theorem takeWhile_digits_take {s : JStr} {k : Nat} :
    (s.take ((s.takeWhile isDigit).length + k)).takeWhile isDigit = s.takeWhile isDigit := by
  rw [List.take_add, take_takeWhile]
  have ha : (s.takeWhile isDigit).all isDigit = true := List.all_eq_true.mpr fun c hc => mem_takeWhile hc
  rw [List.takeWhile_append_of_pos (fun c hc => mem_takeWhile hc)]
  cases hd : s.drop (s.takeWhile isDigit).length with
  | nil => simp
  | cons d ds =>
    have := drop_digits_head s d (by rw [hd]; rfl)
    cases k with
    | zero => simp
    | succ k => simp [List.takeWhile_cons, this]

theorem mDecimal_shrinks : Shrinks mDecimal := by
  intro s n h
  simp only [mDecimal] at h
  split at h
  · cases h
  · rename_i hn
    split at h
    · rename_i r heq
      split at h
      · cases h
      · rename_i hm
        injection h with h; subst h
        have e1 : (s.take ((s.takeWhile isDigit).length + 1 + (r.takeWhile isDigit).length)).takeWhile isDigit
            = s.takeWhile isDigit := by rw [Nat.add_assoc]; exact takeWhile_digits_take
        simp only [mDecimal, e1, if_neg hn]
        rw [List.drop_take, heq]
        rw [show (s.takeWhile isDigit).length + 1 + (r.takeWhile isDigit).length - (s.takeWhile isDigit).length
            = (r.takeWhile isDigit).length + 1 by omega, List.take_succ_cons]
        simp only [takeWhile_take, if_neg hm]
    · cases h

theorem mDecimal_grows : Grows mDecimal := by
  intro s r h
  simp only [mDecimal] at h
  split at h
  · cases h
  · rename_i hn
    split at h
    · rename_i r' heq
      split at h
      · cases h
      · rename_i hm
        injection h with h
        have h2 := congrArg List.length heq
        simp only [List.length_drop, List.length_cons] at h2
        have h3 : (s.takeWhile isDigit).length ≤ s.length := takeWhile_le s
        have hr : r'.all isDigit = true := takeWhile_full (by omega)
        have hs : s = s.takeWhile isDigit ++ '.' :: r' := by
          conv_lhs => rw [← List.take_append_drop (s.takeWhile isDigit).length s]
          rw [heq, take_takeWhile]
        have e1 : (s ++ r).takeWhile isDigit = s.takeWhile isDigit := by
          conv_lhs => rw [hs]
          rw [List.append_assoc, List.takeWhile_append_of_pos (fun c hc => mem_takeWhile hc)]
          simp [List.takeWhile_cons, show isDigit '.' = false from rfl]
        have e2 : (s ++ r).drop (s.takeWhile isDigit).length = '.' :: (r' ++ r) := by
          rw [List.drop_append_of_le_length h3, heq]; rfl
        have hg := takeWhile_grow isDigit r' r hr
        refine ⟨(s.takeWhile isDigit).length + 1 + ((r' ++ r).takeWhile isDigit).length, ?_, ?_⟩
        · have := takeWhile_full (p := isDigit) (s := r')
          have h4 : (r'.takeWhile isDigit).length ≤ r'.length := takeWhile_le r'
          omega
        · simp only [mDecimal, e1, if_neg hn, e2]
          rw [if_neg]
          have h4 : (r'.takeWhile isDigit).length ≤ r'.length := takeWhile_le r'
          omega
    · cases h

theorem dotInts_dot (f : Nat) (r : JStr) : dotInts (f + 1) ('.' :: r) =
    if (r.takeWhile isDigit).length = 0 then 0
    else 1 + (r.takeWhile isDigit).length + dotInts f (r.drop (r.takeWhile isDigit).length) := rfl

theorem dotInts_take (f : Nat) (s : JStr) (g : Nat) (hg : dotInts f s ≤ g) :
    dotInts g (s.take (dotInts f s)) = dotInts f s := by
  induction f generalizing s g with
  | zero => cases g <;> simp [dotInts]
  | succ f ih =>
    cases s with
    | nil => cases g <;> simp [dotInts]
    | cons c cs =>
      by_cases hc : c = '.'
      · subst hc
        rw [dotInts_dot] at hg ⊢
        split
        · cases g <;> simp [dotInts]
        · rename_i hm
          rw [if_neg hm] at hg
          cases g with
          | zero => omega
          | succ g =>
            rw [show 1 + (cs.takeWhile isDigit).length + dotInts f (cs.drop (cs.takeWhile isDigit).length)
              = ((cs.takeWhile isDigit).length + dotInts f (cs.drop (cs.takeWhile isDigit).length)) + 1 by omega,
              List.take_succ_cons, dotInts_dot, takeWhile_digits_take, if_neg hm, List.drop_take,
              Nat.add_sub_cancel_left, ih _ _ (by omega)]
            omega
      · rw [dotInts_noDot _ hc]
        cases g <;> simp [dotInts]

theorem dotInts_grow (f : Nat) (s r : JStr) (g : Nat) (h : dotInts f s = s.length) (hg : s.length ≤ g) :
    s.length ≤ dotInts g (s ++ r) := by
  induction f generalizing s g with
  | zero => rw [dotInts] at h; omega
  | succ f ih =>
    cases s with
    | nil => simp
    | cons c cs =>
      by_cases hc : c = '.'
      · subst hc
        rw [dotInts_dot] at h
        split at h
        · simp at h
        · rename_i hm
          simp only [List.length_cons] at h hg ⊢
          cases g with
          | zero => omega
          | succ g =>
            have h3 : (cs.takeWhile isDigit).length ≤ cs.length := takeWhile_le cs
            have e1 : (cs.takeWhile isDigit).length ≤ ((cs ++ r).takeWhile isDigit).length := by
              conv_rhs => rw [← List.takeWhile_append_dropWhile (p := isDigit) (l := cs), List.append_assoc]
              exact takeWhile_grow isDigit _ _ (List.all_eq_true.mpr fun c hc => mem_takeWhile hc)
            rw [List.cons_append, dotInts_dot, if_neg (by omega)]
            by_cases hlt : (cs.takeWhile isDigit).length = cs.length
            · omega
            · have e2 : (cs ++ r).takeWhile isDigit = cs.takeWhile isDigit := by
                rw [List.takeWhile_append, if_neg hlt]
              rw [e2, List.drop_append_of_le_length h3]
              have := ih (cs.drop (cs.takeWhile isDigit).length) g
                (by simp only [List.length_drop]; omega) (by simp only [List.length_drop]; omega)
              simp only [List.length_drop] at this
              omega
      · rw [dotInts_noDot _ hc] at h; simp at h

theorem mVersion_shrinks : Shrinks mVersion := by
  intro s n h
  cases s with
  | nil => cases h
  | cons c r =>
    simp only [mVersion] at h
    split at h
    · rename_i hc
      split at h
      · cases h
      · rename_i hm
        injection h with h; subst h
        rw [Nat.add_comm, List.take_succ_cons]
        simp only [mVersion]
        have hl := dotInts_le r.length r
        rw [if_pos hc, dotInts_take _ _ _ (by simp; omega), if_neg hm, Nat.add_comm]
    · cases h

theorem mVersion_grows : Grows mVersion := by
  intro s r h
  cases s with
  | nil => cases h
  | cons c s =>
    simp only [mVersion] at h
    split at h
    · rename_i hc
      split at h
      · cases h
      · rename_i hm
        injection h with h
        simp only [List.length_cons] at h
        have hg := dotInts_grow s.length s r (s ++ r).length (by omega) (by simp)
        refine ⟨1 + dotInts (s ++ r).length (s ++ r), by simp only [List.length_cons]; omega, ?_⟩
        simp only [List.cons_append, mVersion]
        rw [if_pos hc, if_neg (by omega)]
    · cases h

/-! ### Dates and quoted texts -/

theorem mPat_take {p s : JStr} {n : Nat} (h : mPat p s = true) (hn : p.length ≤ n) : mPat p (s.take n) = true := by
  induction p generalizing s n with
  | nil => rfl
  | cons c cs ih =>
    cases s with
    | nil => cases h
    | cons d ds =>
      cases n with
      | zero => simp at hn
      | succ n =>
        simp only [mPat, Bool.and_eq_true, List.take_succ_cons] at h ⊢
        exact ⟨h.1, ih h.2 (by simpa using hn)⟩

theorem mDate_shrinks : Shrinks mDate := by
  intro s n h
  unfold mDate at h ⊢
  split at h
  · rename_i hp
    injection h with h; subst h
    rw [if_pos (mPat_take hp (by decide))]
  · cases h

theorem mDateTime_shrinks : Shrinks mDateTime := by
  intro s n h
  unfold mDateTime at h ⊢
  split at h
  · rename_i hp
    injection h with h; subst h
    rw [if_pos (mPat_take hp (by decide))]
  · cases h

theorem mDate_grows : Grows mDate := by
  intro s r h
  unfold mDate at h ⊢
  split at h
  · rename_i hp
    injection h with h
    exact ⟨10, by omega, by rw [if_pos (mPat_append hp)]⟩
  · cases h

theorem mDateTime_grows : Grows mDateTime := by
  intro s r h
  unfold mDateTime at h ⊢
  split at h
  · rename_i hp
    injection h with h
    exact ⟨19, by omega, by rw [if_pos (mPat_append hp)]⟩
  · cases h

theorem mWord_shrinks : Shrinks mWord := by
  intro s n h
  cases s with
  | nil => cases h
  | cons q r =>
    simp only [mWord] at h
    split at h
    · rename_i hq
      split at h
      · rename_i hlt
        injection h with h; subst h
        rw [List.take_succ_cons]
        simp only [mWord]
        have e : (r.take ((r.takeWhile (· ≠ q)).length + 1)).takeWhile (· ≠ q) = r.takeWhile (· ≠ q) := by
          rw [List.take_add, take_takeWhile, List.takeWhile_append_of_pos (fun c hc => mem_takeWhile hc)]
          rw [drop_takeWhile]
          cases hd : r.dropWhile (· ≠ q) with
          | nil => simp
          | cons d ds =>
            have := List.head?_dropWhile_not (· ≠ q) r
            rw [hd] at this
            have hdq : d = q := by simpa using this
            subst hdq
            simp
        rw [if_pos hq, e, if_pos (by rw [List.length_take]; omega)]
      · cases h
    · cases h

theorem mWord_grows : Grows mWord := fun s r h => ⟨s.length, Nat.le_refl _, mWord_append h⟩

theorem lexRules_shrinks : ∀ p ∈ lexRules, Shrinks p.2 := by
  unfold lexRules
  simp only [List.forall_mem_cons]
  refine ⟨?_, ?_, ?_, ?_, ?_, ?_, ?_, ?_, ?_, ?_, ?_, ?_, ?_, ?_, ?_, ?_,
    ?_, ?_, ?_, ?_, ?_, ?_, ?_, ?_, ?_, ?_, ?_, ?_, ?_, ?_, ?_, ?_, ?_, ?_, mDecimal_shrinks,
    mVersion_shrinks, nz_shrinks _, mDate_shrinks, mDateTime_shrinks, nz_shrinks _,
    mWord_shrinks, nz_shrinks _, ?_⟩
  all_goals first
    | exact mLit_shrinks _
    | exact mLit2_shrinks _ _
    | skip
  · intro s n h
    simp only at h ⊢
    split at h
    · rename_i hp
      injection h with h; subst h
      rw [if_pos (isPrefixOf_take hp _ (by decide))]
    · rename_i hp
      rw [if_neg (fun h' => hp (isPrefixOf_untake h'))]
      exact mLit2_shrinks _ _ s n h
  · intro s n h
    simp only at h ⊢
    split at h
    · rename_i hp
      injection h with h; subst h
      rw [if_pos (isPrefixOf_take hp _ (by decide))]
    · rename_i hp
      rw [if_neg (fun h' => hp (isPrefixOf_untake h'))]
      exact mLit2_shrinks _ _ s n h
  · intro p hp; cases hp

theorem lexRules_grows : ∀ p ∈ lexRules, Grows p.2 := by
  unfold lexRules
  simp only [List.forall_mem_cons]
  refine ⟨?_, ?_, ?_, ?_, ?_, ?_, ?_, ?_, ?_, ?_, ?_, ?_, ?_, ?_, ?_, ?_,
    ?_, ?_, ?_, ?_, ?_, ?_, ?_, ?_, ?_, ?_, ?_, ?_, ?_, ?_, ?_, ?_, ?_, ?_, mDecimal_grows,
    mVersion_grows, nz_grows _, mDate_grows, mDateTime_grows, nz_grows _,
    mWord_grows, nz_grows _, ?_⟩
  all_goals first
    | exact mLit_grows _
    | exact mLit2_grows _ _ (.inl rfl)
    | skip
  · intro s r h
    simp only at h ⊢
    split at h
    · rename_i hp
      injection h with h
      exact ⟨3, by omega, by rw [if_pos (isPrefixOf_append' r hp)]⟩
    · by_cases hp : j!"AND".isPrefixOf (s ++ r) = true
      · have := mLit2_full h
        exact ⟨3, by rcases this with e | e <;> rw [e] <;> decide, by rw [if_pos hp]⟩
      · rw [if_neg hp]
        exact mLit2_grows _ _ (.inr rfl) s r h
  · intro s r h
    simp only at h ⊢
    split at h
    · rename_i hp
      injection h with h
      exact ⟨2, by omega, by rw [if_pos (isPrefixOf_append' r hp)]⟩
    · by_cases hp : j!"OR".isPrefixOf (s ++ r) = true
      · have := mLit2_full h
        exact ⟨2, by rcases this with e | e <;> rw [e] <;> decide, by rw [if_pos hp]⟩
      · rw [if_neg hp]
        exact mLit2_grows j!"or" j!"||" (.inl rfl) s r h
  · intro p hp; cases hp

/-! ### The longest match -/

theorem bestMatch_none {s : JStr} {rs : List (LexKind × (JStr → Option Nat))} (h : bestMatch s rs = none) :
    ∀ p ∈ rs, p.2 s = none := by
  induction rs with
  | nil => intro p hp; cases hp
  | cons q qs ih =>
    intro p hp
    obtain ⟨kq, mq⟩ := q
    simp only [bestMatch] at h
    cases hq : mq s with
    | none =>
      simp only [hq] at h
      rcases List.mem_cons.mp hp with rfl | hp
      · exact hq
      · exact ih h p hp
    | some nq =>
      simp only [hq] at h
      cases hb : bestMatch s qs with
      | none => simp only [hb] at h; cases h
      | some x => simp only [hb] at h; split at h <;> cases h

/-- The rules are tried in order: the first of the longest matches. -/
theorem bestMatch_some {s : JStr} {rs : List (LexKind × (JStr → Option Nat))} {k : LexKind} {n : Nat}
    (h : bestMatch s rs = some (k, n)) :
    ∃ (pre : List (LexKind × (JStr → Option Nat))) (m : JStr → Option Nat)
      (post : List (LexKind × (JStr → Option Nat))),
      rs = pre ++ (k, m) :: post ∧ m s = some n ∧ (∀ p ∈ pre, ∀ j, p.2 s = some j → j < n) ∧
      ∀ p ∈ post, ∀ j, p.2 s = some j → j ≤ n := by
  induction rs generalizing k n with
  | nil => cases h
  | cons p ps ih =>
    obtain ⟨k0, m0⟩ := p
    simp only [bestMatch] at h
    cases hm : m0 s with
    | none =>
      simp only [hm] at h
      obtain ⟨pre, m, post, e, h1, h2, h3⟩ := ih h
      refine ⟨(k0, m0) :: pre, m, post, by rw [e]; rfl, h1, ?_, h3⟩
      intro p hp j hj
      rcases List.mem_cons.mp hp with rfl | hp
      · simp only at hj; rw [hm] at hj; cases hj
      · exact h2 p hp j hj
    | some n0 =>
      simp only [hm] at h
      cases hb : bestMatch s ps with
      | none =>
        simp only [hb] at h
        injection h with h; injection h with e1 e2; subst e1; subst e2
        refine ⟨[], m0, ps, rfl, hm, by simp, ?_⟩
        intro p hp j hj
        rw [bestMatch_none hb p hp] at hj; cases hj
      | some x =>
        obtain ⟨k', n'⟩ := x
        simp only [hb] at h
        obtain ⟨pre, m, post, e, h1, h2, h3⟩ := ih hb
        split at h
        · rename_i hlt
          injection h with h; injection h with e1 e2; subst e1; subst e2
          refine ⟨(k0, m0) :: pre, m, post, by rw [e]; rfl, h1, ?_, h3⟩
          intro p hp j hj
          rcases List.mem_cons.mp hp with rfl | hp
          · simp only at hj; rw [hm] at hj; injection hj with hj; omega
          · exact h2 p hp j hj
        · rename_i hlt
          injection h with h; injection h with e1 e2; subst e1; subst e2
          refine ⟨[], m0, ps, rfl, hm, by simp, ?_⟩
          intro p hp j hj
          rw [e] at hp
          rcases List.mem_append.mp hp with hp | hp
          · have := h2 p hp j hj; omega
          · rcases List.mem_cons.mp hp with rfl | hp
            · simp only at hj; rw [h1] at hj; injection hj with hj; omega
            · have := h3 p hp j hj; omega

theorem bestMatch_max {s : JStr} {rs : List (LexKind × (JStr → Option Nat))} {k : LexKind} {n : Nat}
    (h : bestMatch s rs = some (k, n)) : ∀ p ∈ rs, ∀ j, p.2 s = some j → j ≤ n := by
  obtain ⟨pre, m, post, e, h1, h2, h3⟩ := bestMatch_some h
  intro p hp j hj
  rw [e] at hp
  rcases List.mem_append.mp hp with hp | hp
  · exact Nat.le_of_lt (h2 p hp j hj)
  · rcases List.mem_cons.mp hp with rfl | hp
    · simp only at hj; rw [h1] at hj; injection hj with hj; omega
    · exact h3 p hp j hj

/-- The matched text alone is matched the same way. -/
theorem bestMatch_take {s : JStr} {k : LexKind} {n : Nat} (h : bestMatch s lexRules = some (k, n)) :
    bestMatch (s.take n) lexRules = some (k, n) := by
  have hn := bestMatch_sane h
  have hl : (s.take n).length = n := by rw [List.length_take]; omega
  have hmax := bestMatch_max h
  obtain ⟨pre, m, post, e, h1, h2, h3⟩ := bestMatch_some h
  have hS := lexRules_shrinks; have hG := lexRules_grows; have hSa := lexRules_sane
  rw [e] at hS hG hSa ⊢
  apply bestMatch_pick
  · exact hS (k, m) (by simp) s n h1
  · intro p hp j hj
    have hj' := hSa p (by simp [hp]) _ _ hj
    rw [hl] at hj'
    rcases Nat.lt_or_eq_of_le hj'.2 with h' | h'
    · exact h'
    · subst h'
      obtain ⟨i, hi, hi'⟩ := hG p (by simp [hp]) (s.take j) (s.drop j) (by rw [hj, hl])
      rw [List.take_append_drop] at hi'
      have := h2 p hp i hi'
      omega
  · intro p hp j hj
    have hj' := hSa p (by simp [hp]) _ _ hj
    omega

theorem valid_of_bestMatch {s : JStr} {k : TK} {n : Nat} (h : bestMatch s lexRules = some (.tok k, n)) :
    ValidTok ⟨k, s.take n⟩ := by
  have hn := bestMatch_sane h
  refine valid_of_best ?_
  simp only [List.length_take, Nat.min_eq_left hn.2]
  exact bestMatch_take h

end BoolParser
