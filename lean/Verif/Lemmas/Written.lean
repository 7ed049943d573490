import Verif.Lemmas.LexValid
import Verif.Spec.Text
/-!
# Written lexemes are read back
-/

namespace BoolParser
open Spec

theorem isBlank_ws (c : Char) : isBlank c = isWs c := by
  simp only [isBlank, isWs]
  cases c == ' ' <;> cases c == '\t' <;> cases c == '\n' <;> cases c == '\r' <;> rfl

theorem all_blank_ws {w : JStr} (h : w.all isBlank = true) : w.all isWs = true := by
  rw [List.all_eq_true] at *
  intro c hc; rw [← isBlank_ws]; exact h c hc

theorem valid_shape {t : Token} (h : ValidTok t) : TokShape t.kind t.text ∧
    (t.text.all isFieldChar = true → glueOk t = fun r => glueOk ⟨.field, t.text⟩ r) := by
  obtain ⟨k, s⟩ := t
  obtain ⟨hne, hb⟩ := h
  obtain ⟨p, hp, hk, hm⟩ := bestMatch_mem hb
  exact lexRules_shape p hp s k hk hm

/-- What a text of written tokens can start with: nothing, white space, or a token directly. -/
theorem written_colon {ls : List JStr} {r : JStr} (h : Written ls r)
    (hv : ∀ l ∈ ls, ∃ k, ValidTok ⟨k, l⟩) : r.head? ≠ some ':' := by
  intro e
  cases h with
  | nil hw =>
    cases r with
    | nil => cases e
    | cons c cs =>
      simp at e hw; subst e
      exact absurd hw.1 (by decide)
  | @cons w l r' ls hw h' hr =>
    cases w with
    | cons c cs =>
      simp at e hw; subst e
      exact absurd hw.1 (by decide)
    | nil =>
      obtain ⟨k, hl⟩ := hv l (by simp)
      cases l with
      | nil => exact hl.ne rfl
      | cons c cs =>
        simp at e; subst e
        cases (valid_shape hl).1 with
        | word h => simp at h; exact absurd h.1 (by decide)
        | date h => simp [mPat] at h; exact absurd h.1 (by decide)
        | datetime h => simp [mPat] at h; exact absurd h.1 (by decide)
        | quoted h => simp [mWord] at h

theorem written_noTime {ls : List JStr} {r : JStr} (h : Written ls r)
    (hv : ∀ l ∈ ls, ∃ k, ValidTok ⟨k, l⟩) : timeAhead r = false := by
  cases ht : timeAhead r with
  | false => rfl
  | true =>
    exfalso
    cases h with
    | nil hw =>
      match r, ht, hw with
      | c :: d :: cs, ht, hw =>
        simp [timeAhead, mPat] at ht
        simp at hw
        have h1 := hw.2.1; have h2 := ht.2.1
        rw [isBlank_ws] at h1
        rcases isWs_cases h1 with rfl | rfl | rfl | rfl | rfl <;> exact absurd h2 (by decide)
      | [c], ht, _ => simp [timeAhead, mPat] at ht
      | [], ht, _ => simp [timeAhead, mPat] at ht
    | @cons w l r' ls hw h' hr =>
      obtain ⟨k, hl⟩ := hv l (by simp)
      have hv' : ∀ l ∈ ls, ∃ k, ValidTok ⟨k, l⟩ := fun x hx => hv x (by simp [hx])
      have hcolon := written_colon h' hv'
      have hsh := (valid_shape hl).1
      match w, hw, ht with
      | [], _, ht =>
        cases l with
        | nil => exact hl.ne rfl
        | cons c cs =>
          simp [timeAhead, mPat] at ht
          have hc : ' ' = c := ht.1
          subst hc
          cases hsh with
          | word h => simp at h; exact absurd h.1 (by decide)
          | date h => simp [mPat] at h; exact absurd h.1 (by decide)
          | datetime h => simp [mPat] at h; exact absurd h.1 (by decide)
          | quoted h => simp [mWord] at h
      | c :: d :: w', hw, ht =>
        simp [timeAhead, mPat] at ht
        simp at hw
        have h1 := hw.2.1; have h2 := ht.2.1
        rw [isBlank_ws] at h1
        rcases isWs_cases h1 with rfl | rfl | rfl | rfl | rfl <;> exact absurd h2 (by decide)
      | [c], _, ht =>
        match l, hl, hsh, hr, ht with
        | [], hl, _, _, _ => exact hl.ne rfl
        | [d1], hl, hsh, hr, ht =>
          cases r' with
          | nil => simp [timeAhead, mPat] at ht
          | cons x xs =>
            simp [timeAhead, mPat] at ht
            have e1 : isNameChar d1 = true := by simp [isNameChar, ht.2.1]
            have e2 : isNameChar x = true := by simp [isNameChar, ht.2.2.1]
            simp [runsInto, e1, e2] at hr
        | [d1, d2], hl, hsh, hr, ht =>
          cases r' with
          | nil => simp [timeAhead, mPat] at ht
          | cons x xs =>
            simp [timeAhead, mPat] at ht
            exact hcolon (by simp [← ht.2.2.2.1])
        | d1 :: d2 :: d3 :: l', hl, hsh, hr, ht =>
          simp [timeAhead, mPat] at ht
          have e1 := ht.2.1
          have e3 : ':' = d3 := ht.2.2.2.1
          subst e3
          generalize hx : d1 :: d2 :: ':' :: l' = x at hsh
          cases hsh with
          | word h => rw [← hx] at h; simp at h; exact absurd h.2.2.1 (by decide)
          | date h => rw [← hx] at h; simp [mPat] at h; exact absurd h.2.2.1 (by decide)
          | datetime h => rw [← hx] at h; simp [mPat] at h; exact absurd h.2.2.1 (by decide)
          | quoted h =>
            rw [← hx] at h
            simp only [mWord] at h
            split at h
            · rename_i hq
              rcases hq with rfl | rfl <;> exact absurd e1 (by decide)
            · cases h
          | _ => simp at hx

theorem glue_of_runs {t : Token} {r : JStr} (h : ValidTok t) (hr : runsInto t.text r = false)
    (ht : timeAhead r = false) : glueOk t r = true := by
  obtain ⟨hs, hg⟩ := valid_shape h
  obtain ⟨k, s⟩ := t
  simp only at hs hr hg ⊢
  simp only [runsInto, Bool.or_eq_false_iff] at hr
  obtain ⟨⟨h1, h2⟩, h3⟩ := hr
  cases hs with
  | word hw =>
    rw [hg hw]
    have hne : s ≠ [] := h.ne
    have hl : s.getLast?.any isNameChar = true := by
      rw [List.getLast?_eq_some_getLast hne]
      simp only [Option.any_some]
      rw [List.all_eq_true] at hw
      rw [nameChar_field]; exact hw _ (List.getLast_mem hne)
    rw [hl, Bool.true_and] at h1
    have e1 : r.head?.all (fun c => !isFieldChar c) = true := by
      cases r with
      | nil => rfl
      | cons c cs => simp [nameChar_field] at h1; simp [h1]
    simp only [glueOk, e1, Bool.true_and, Bool.or_eq_true]
    right
    simp only [digits4, Bool.not_eq_true', h2]
  | date _ => simp [glueOk, ht]
  | gt => 
    simp at h3
    simp [glueOk, h3]
  | lt =>
    simp at h3
    simp [glueOk, h3]
  | _ => rfl

/-- Valid tokens, written with any white space, are read back. -/
theorem lex_written {ts : List Token} {s : JStr} (hv : ∀ t ∈ ts, ValidTok t)
    (h : Written (ts.map Token.text) s) : lex s = ts := by
  induction ts generalizing s with
  | nil =>
    cases h with
    | nil hw =>
      have := lex_ws (r := []) (all_blank_ws hw)
      simpa using this
  | cons t ts ih =>
    cases h with
    | @cons w l r ls hw h' hr =>
      have hv' : ∀ l ∈ ts.map Token.text, ∃ k, ValidTok ⟨k, l⟩ := by
        intro l hl
        obtain ⟨u, hu, rfl⟩ := List.mem_map.mp hl
        exact ⟨u.kind, hv u (by simp [hu])⟩
      have hg := glue_of_runs (hv t (by simp)) hr (written_noTime h' hv')
      rw [List.append_assoc, lex_ws (all_blank_ws hw), lex_tok (hv t (by simp)) hg,
        ih (fun u hu => hv u (by simp [hu])) h']

theorem written_spaced (ls : List JStr) : Written ls (spaced ls) := by
  induction ls with
  | nil => exact .nil rfl
  | cons l ls ih =>
    rw [spaced]
    refine Written.cons (w := [' ']) (r := spaced ls) rfl ih ?_
    cases ls with
    | nil => simp [runsInto, spaced]
    | cons l' ls =>
      simp only [runsInto, spaced, List.head?_cons, Option.any_some]
      simp [show isNameChar ' ' = false from rfl]

end BoolParser
