import Verif.Spec.Mentions
import Verif.Lemmas.Paths
import Verif.Lemmas.SimEval
import Verif.Lemmas.Agree
import Verif.Lemmas.Compare
import Verif.Lemmas.Digits
import Verif.Lemmas.Cutting
/-!
# Looking up the names a text mentions
-/

namespace BoolParser
open Spec

/-! ### Lookups -/

theorem splitDots_dots {f : JStr} (h : ∀ c ∈ f, c = '.') : ∀ p ∈ splitDotsAll f, p = [] := by
  induction f with
  | nil => simp [splitDotsAll]
  | cons c cs ih =>
    have hc : c = '.' := h c (by simp)
    rw [splitDotsAll, if_pos hc]
    intro p hp
    rcases List.mem_cons.1 hp with rfl | hp
    · rfl
    · exact ih (fun c hc => h c (List.mem_cons_of_mem _ hc)) p hp

theorem dropWhile_all {p : JStr → Bool} {xs : List JStr} (h : ∀ x ∈ xs, p x = true) : xs.dropWhile p = [] := by
  induction xs with
  | nil => rfl
  | cons x xs ih =>
    rw [List.dropWhile_cons_of_pos (h x (by simp))]
    exact ih (fun y hy => h y (List.mem_cons_of_mem _ hy))

theorem lookup_dots {f : JStr} (hne : f ≠ []) (h : ∀ c ∈ f, c = '.') (d : Data) :
    getValueFromMap f d = .error .indexOutOfBounds := by
  have hd : '.' ∈ f := by
    cases f with
    | nil => exact absurd rfl hne
    | cons c cs => rw [h c (by simp)]; simp
  have : splitKey f = [] := by
    rw [splitKey, if_pos hd, dropTrailingEmpty, dropWhile_all, List.reverse_nil]
    intro x hx
    have := splitDots_dots h x (by simpa using hx)
    simpa using this
  rw [getValueFromMap, this, walkKeys]

theorem name_cases (f : JStr) : f = [] ∨ (∃ ks, Names f ks) ∨ (f ≠ [] ∧ ∀ c ∈ f, c = '.') := by
  by_cases h : ∃ c ∈ f, c ≠ '.'
  · exact .inr (.inl (names_exists h))
  · by_cases h0 : f = []
    · exact .inl h0
    · refine .inr (.inr ⟨h0, fun c hc => ?_⟩)
      by_contra hn
      exact h ⟨c, hc, hn⟩

theorem lookup_empty (d : Data) : getValueFromMap [] d =
    (match mapGet d [] with | none => .ok none | some .null => .ok none | some v => .ok (some v)) := rfl

theorem sameAt_lookup {f : JStr} {d d' : Data} (h : SameAt f d d') : getValueFromMap f d = getValueFromMap f d' := by
  rcases name_cases f with rfl | ⟨ks, hk⟩ | ⟨h0, h1⟩
  · have : mapGet d [] = mapGet d' [] := by
      have h2 := h.2 rfl
      apply Option.ext
      intro v
      rw [mapGet_iff, mapGet_iff]
      exact h2 v
    rw [lookup_empty, lookup_empty, this]
  · exact lookup_agree hk h.1
  · rw [lookup_dots h0 h1, lookup_dots h0 h1]

theorem keptAt_lookup {f : JStr} {d d' : Data} (h : KeptAt f d d') {v : Value} (hv : getValueFromMap f d = .ok (some v)) :
    getValueFromMap f d' = .ok (some v) := by
  rcases name_cases f with rfl | ⟨ks, hk⟩ | ⟨h0, h1⟩
  · rw [lookup_empty] at hv ⊢
    cases hm : mapGet d [] with
    | none => rw [hm] at hv; cases hv
    | some w =>
      rw [(mapGet_iff _ _ _).2 (h.2 rfl w ((mapGet_iff _ _ _).1 hm))]
      rw [hm] at hv
      exact hv
  · rw [lookup_some hk] at hv ⊢
    exact h.1 ks v hk hv
  · rw [lookup_dots h0 h1] at hv; cases hv

/-! ### The text of a literal -/

theorem numberLike_append {a : JStr} (h : NumberLike a) (b : JStr) : NumberLike (a ++ b) := by
  obtain ⟨c, r, rfl, h⟩ := h; exact ⟨c, r ++ b, rfl, h⟩

theorem numberLike_natStr (n : Nat) : NumberLike (natStr n) := by
  have h := natStr_digits n
  cases hs : natStr n with
  | nil => exact absurd hs (natStr_ne_nil n)
  | cons c r =>
    rw [hs] at h
    simp only [List.all_cons, Bool.and_eq_true] at h
    exact ⟨c, r, rfl, .inl h.1⟩

theorem numberLike_minus (s : JStr) : NumberLike ('-' :: s) := ⟨_, _, rfl, .inr (.inl rfl)⟩

theorem numberLike_intStr (n : Int) : NumberLike (intStr n) := by
  unfold intStr
  split
  · exact numberLike_minus _
  · exact numberLike_natStr _

theorem numberLike_sign (n : Int) {s : JStr} (h : NumberLike s) :
    NumberLike ((if n < 0 then ['-'] else []) ++ s) := by
  split
  · exact numberLike_minus _
  · exact h

theorem numberLike_padNat (w n : Nat) : NumberLike (padNat w n) := by
  unfold padNat
  cases w - (natStr n).length with
  | zero => exact numberLike_natStr n
  | succ k => exact ⟨'0', _, rfl, .inl rfl⟩

theorem numberLike_dec (d : Dec) : NumberLike d.toStr := by
  have hn := numberLike_natStr d.unscaled.natAbs
  unfold Dec.toStr
  simp only
  generalize natStr d.unscaled.natAbs = k at hn
  obtain ⟨c0, r0, rfl, h0⟩ := hn
  have hn : NumberLike (c0 :: r0) := ⟨c0, r0, rfl, h0⟩
  split
  · exact numberLike_sign _ hn
  · split
    · split
      · rw [List.append_assoc, List.append_assoc]
        exact numberLike_sign _ ⟨'0', _, rfl, .inl rfl⟩
      · rename_i hlt
        rw [List.append_assoc, List.append_assoc]
        refine numberLike_sign _ (numberLike_append ?_ _)
        have : (c0 :: r0).length - d.scale.toNat = ((c0 :: r0).length - d.scale.toNat - 1) + 1 := by omega
        rw [this]
        exact ⟨c0, _, rfl, h0⟩
    · split
      · exact numberLike_sign _ (by cases r0 <;> exact ⟨c0, _, rfl, h0⟩)
      · rw [List.append_assoc, List.append_assoc, List.append_assoc]
        exact numberLike_sign _ (numberLike_append (by cases r0 <;> exact ⟨c0, _, rfl, h0⟩) _)

theorem numberLike_date (d : Date) : NumberLike (dateStr d) := by
  unfold dateStr
  simp only [List.append_assoc]
  refine numberLike_append ?_ _
  split
  · exact numberLike_minus _
  · split
    · exact ⟨'+', _, rfl, .inr (.inr rfl)⟩
    · exact numberLike_padNat _ _

theorem numberLike_datetime (t : DateTime) : NumberLike (dateTimeStr t) := by
  unfold dateTimeStr
  rw [List.append_assoc]
  exact numberLike_append (numberLike_date _) _

theorem unquote_inside {q : Char} {s r : JStr} (h1 : s.head? = some q) (h2 : s.getLast? = some q) (h : unquote s = .ok r) :
    s = q :: (r ++ [q]) := by
  unfold unquote at h
  split at h
  · cases h
  · rename_i hl
    cases h
    cases s with
    | nil => cases h1
    | cons c cs =>
      simp only [List.head?_cons, Option.some.injEq] at h1
      subst h1
      have hne : cs ≠ [] := by rintro rfl; simp at hl
      rw [List.drop_succ_cons, List.drop_zero]
      rw [List.getLast?_cons] at h2
      have h3 : cs.getLast hne = c := by
        rw [List.getLast?_eq_some_getLast hne] at h2
        simpa using h2
      conv_lhs => rw [← List.dropLast_concat_getLast hne, h3]

theorem convertString {s : JStr} {v : Value} (h : convertValue s .string = .ok v) :
    v = .str s ∨ ∃ q r, (q = '\'' ∨ q = '"') ∧ s = q :: (r ++ [q]) ∧ v = .str r := by
  simp only [convertValue] at h
  split at h
  · rename_i hq
    cases hu : unquote s with
    | error e => rw [hu] at h; cases h
    | ok r => rw [hu] at h; cases h; exact .inr ⟨_, r, .inl rfl, unquote_inside hq.1 hq.2 hu, rfl⟩
  · split at h
    · rename_i hq
      cases hu : unquote s with
      | error e => rw [hu] at h; cases h
      | ok r => rw [hu] at h; cases h; exact .inr ⟨_, r, .inr rfl, unquote_inside hq.1 hq.2 hu, rfl⟩
    · cases h; exact .inl rfl

/-- What the value of an operand is looked up as. -/
theorem convert_text {s : JStr} {t : DataType} {v : Value} (h : convertValue s t = .ok v) (hb : t ≠ .boolean)
    (hn : v ≠ .null) :
    v.text = s ∨ (∃ q, (q = '\'' ∨ q = '"') ∧ s = q :: (v.text ++ [q])) ∨ NumberLike v.text := by
  cases t with
  | string =>
    rcases convertString h with rfl | ⟨q, r, hq, hs, rfl⟩
    · exact .inl rfl
    · exact .inr (.inl ⟨q, hq, hs⟩)
  | integer =>
    simp only [convertValue] at h
    split at h
    · cases h; exact .inr (.inr (numberLike_intStr _))
    · cases h
  | long =>
    simp only [convertValue] at h
    split at h
    · cases h; exact .inr (.inr (numberLike_intStr _))
    · cases h
  | decimal =>
    simp only [convertValue] at h
    split at h
    · cases h; exact .inr (.inr (numberLike_dec _))
    · cases h
  | boolean => exact absurd rfl hb
  | version => cases h; exact .inl rfl
  | date =>
    simp only [convertValue, Except.ok.injEq] at h
    subst h
    split
    · exact .inr (.inr (numberLike_date _))
    · rename_i hp; rw [hp] at hn; exact absurd rfl hn
  | datetime =>
    simp only [convertValue, Except.ok.injEq] at h
    subst h
    split
    · exact .inr (.inr (numberLike_datetime _))
    · rename_i hp; rw [hp] at hn; exact absurd rfl hn

theorem evalUnary_agree {d d' : Data} {dt : DataType} {v : Value}
    (h : dt ≠ .boolean → v ≠ .null → getValueFromMap v.text d = getValueFromMap v.text d') :
    evalUnary d dt v = evalUnary d' dt v := by
  unfold evalUnary
  by_cases hb : (dt == .boolean) = true
  · rw [if_pos hb, if_pos hb]
  · rw [if_neg hb, if_neg hb]
    have hb' : dt ≠ .boolean := by rintro rfl; exact hb rfl
    by_cases hn : v = .null
    · subst hn; rfl
    · rw [toText_ok hn, ok_bind, ok_bind]
      have := h hb' hn
      simp only [requireField, lookupField, this]

theorem evalUnary_kept {d d' : Data} {dt : DataType} {v : Value} {b : Bool}
    (h : dt ≠ .boolean → v ≠ .null → ∀ w, getValueFromMap v.text d = .ok (some w) → getValueFromMap v.text d' = .ok (some w))
    (he : evalUnary d dt v = .ok b) : evalUnary d' dt v = .ok b := by
  unfold evalUnary at he ⊢
  by_cases hb : (dt == .boolean) = true
  · rw [if_pos hb] at he ⊢; exact he
  · rw [if_neg hb] at he ⊢
    have hb' : dt ≠ .boolean := by rintro rfl; exact hb rfl
    by_cases hn : v = .null
    · subst hn; cases he
    · rw [toText_ok hn, ok_bind] at he ⊢
      have := h hb' hn
      simp only [requireField, lookupField] at he ⊢
      cases hg : getValueFromMap v.text d with
      | error e => rw [hg] at he; cases he
      | ok o =>
        cases o with
        | none => rw [hg] at he; cases he
        | some w => rw [this w hg]; rw [hg] at he; exact he

end BoolParser
