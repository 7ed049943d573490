import Verif.Lemmas.Cutting
/-!
# White space at the ends of a text
-/

namespace BoolParser
open Spec

/-- The tokens are determined by their texts. -/
theorem lex_inj {s s' : JStr} (h : (lex s).map Token.text = (lex s').map Token.text) : lex s = lex s' := by
  have h1 := lex_valid _ s (Nat.le_refl _)
  have h2 := lex_valid _ s' (Nat.le_refl _)
  generalize lex s = a at *
  generalize lex s' = b at *
  induction a generalizing b with
  | nil => cases b with
    | nil => rfl
    | cons t ts => simp at h
  | cons t ts ih => cases b with
    | nil => simp at h
    | cons u us =>
      rw [List.map_cons, List.map_cons, List.cons.injEq] at h
      have e : t = u := by
        obtain ⟨k, x⟩ := t; obtain ⟨k', x'⟩ := u
        have : x = x' := h.1
        subst this
        rw [valid_unique (h1 ⟨k, x⟩ List.mem_cons_self) (h2 ⟨k', x⟩ List.mem_cons_self)]
      rw [e, ih (fun t ht => h1 t (List.mem_cons_of_mem _ ht)) _ (fun t ht => h2 t (List.mem_cons_of_mem _ ht)) h.2]

theorem getLast_append {a b : JStr} (h : b ≠ []) : (a ++ b).getLast? = b.getLast? := by
  rw [List.getLast?_append]
  cases e : b.getLast? with
  | none => exact absurd (List.getLast?_eq_none_iff.mp e) h
  | some c => rfl

theorem lexeme_last {t : JStr} (h : IsLexeme t) : ∀ c, t.getLast? = some c → isBlank c = false := by
  intro c hc
  have hdig : ∀ {c : Char}, isNameChar c = true → isBlank c = false := by
    intro c h
    rw [isBlank_ws]; exact field_not_ws h
  have hlast : ∀ {n : Nat} {d : JStr} {p : JStr}, HasDigits (n + 1) d → (p ++ d).getLast? = some c →
      isBlank c = false := by
    intro n d p hd hc
    have hne : d ≠ [] := by intro e; rw [e] at hd; cases hd.1
    rw [getLast_append hne] at hc
    have hm := List.mem_of_getLast? hc
    have := List.all_eq_true.mp hd.2 c hm
    apply hdig
    simp only [isNameChar, isLetter, Bool.or_eq_true] 
    simp [this]
  rcases h with ⟨k, hk⟩ | ⟨q, x, hq, _, rfl⟩ | ⟨y, m, d, _, _, hd, rfl⟩ | ⟨x, h, m, s, _, _, _, hs, rfl⟩ | ⟨hne, hall⟩
  · have : tokenTable.all (fun p => (p.1.getLast?.any isBlank) == false) = true := by krfl
    have h2 := List.all_eq_true.mp this _ hk
    simp only [hc, Option.any_some, beq_iff_eq] at h2
    exact h2
  · rw [List.getLast?_cons, List.getLast?_concat] at hc
    simp at hc
    subst hc
    rcases hq with rfl | rfl <;> rfl
  · exact hlast (p := y ++ '-' :: (m ++ ['-'])) hd (by simpa using hc)
  · exact hlast (p := x ++ ' ' :: (h ++ ':' :: (m ++ [':']))) hs (by simpa using hc)
  · exact hdig (List.all_eq_true.mp hall c (List.mem_of_getLast? hc))

theorem prefix_trailing {t s w : JStr} (ht : IsLexeme t) (hw : w.all isBlank = true) (h : t <+: s ++ w) :
    t <+: s := by
  by_cases hl : t.length ≤ s.length
  · exact List.prefix_of_prefix_length_le h (List.prefix_append s w) hl
  · exfalso
    have h1 : s <+: t := List.prefix_of_prefix_length_le (List.prefix_append s w) h (by omega)
    obtain ⟨v, rfl⟩ := h1
    have hv : v ≠ [] := by intro e; rw [e] at hl; simp at hl
    have h2 : v <+: w := (List.prefix_append_right_inj s).mp h
    obtain ⟨c, hc⟩ : ∃ c, v.getLast? = some c := by
      cases e : v.getLast? with
      | none => exact absurd (List.getLast?_eq_none_iff.mp e) hv
      | some c => exact ⟨c, rfl⟩
    have h3 := lexeme_last ht c (by rw [getLast_append hv]; exact hc)
    have h4 := List.all_eq_true.mp hw c (h2.subset (List.mem_of_getLast? hc))
    rw [h3] at h4; cases h4

theorem cut_blanks {w : JStr} (hw : w.all isBlank = true) : Cut w [] := by
  induction w with
  | nil => exact .done
  | cons c r ih =>
    rw [List.all_cons, Bool.and_eq_true] at hw
    exact .blank hw.1 (ih hw.2)

theorem cut_leading {w s : JStr} {ts : List JStr} (hw : w.all isBlank = true) (h : Cut s ts) : Cut (w ++ s) ts := by
  induction w with
  | nil => exact h
  | cons c r ih =>
    rw [List.all_cons, Bool.and_eq_true] at hw
    exact .blank hw.1 (ih hw.2)

theorem cut_nil {ts : List JStr} (h : Cut [] ts) : ts = [] := by
  have := cut_unique h
  rw [← this]; rfl

theorem cut_trailing {w s : JStr} {ts : List JStr} (hw : w.all isBlank = true) (h : Cut s ts) : Cut (s ++ w) ts := by
  induction h with
  | done => exact cut_blanks hw
  | blank hc _ ih => exact .blank hc ih
  | @token t r ts ht hmax _ ih =>
    rw [List.append_assoc]
    refine .token ht (fun t' ht' hp => hmax t' ht' ?_) ih
    rw [← List.append_assoc] at hp
    exact prefix_trailing ht' hw hp
  | @dropped x r ts hx hno hd hr ih =>
    have hno' : ∀ t', IsLexeme t' → ¬ t' <+: (x ++ r) ++ w := fun t' ht' hp =>
      hno t' ht' (prefix_trailing ht' hw hp)
    rcases hd with ⟨q, y, hq, rfl, rfl⟩ | ⟨c, hc, hcase⟩ | ⟨c, hc, rfl⟩
    · have e := cut_nil hr
      subst e
      have : Cut ((q :: (y ++ w)) ++ []) [] := by
        refine .dropped ?_ ?_ (.inl ⟨q, y ++ w, hq, rfl, rfl⟩) .done
        · intro c hc; exact hx c (by simpa using hc)
        · intro t' ht' hp; exact hno' t' ht' (by simpa using hp)
      simpa using this
    · rcases hcase with ⟨c', rfl⟩ | ⟨rfl, rfl⟩
      · rw [List.append_assoc]
        refine .dropped hx ?_ (.inr (.inl ⟨c, hc, .inl ⟨c', rfl⟩⟩)) ih
        intro t' ht' hp; exact hno' t' ht' (by rw [List.append_assoc]; exact hp)
      · have e := cut_nil hr
        subst e
        cases w with
        | nil => exact .dropped hx (by simpa using hno) (.inr (.inl ⟨c, hc, .inr ⟨rfl, rfl⟩⟩)) .done
        | cons c' w' =>
          rw [List.all_cons, Bool.and_eq_true] at hw
          have : Cut ([c, c'] ++ w') [] := by
            refine .dropped ?_ ?_ (.inr (.inl ⟨c, hc, .inl ⟨c', rfl⟩⟩)) (cut_blanks hw.2)
            · intro a ha; exact hx a (by simpa using ha)
            · intro t' ht' hp; exact hno' t' ht' (by simpa using hp)
          simpa using this
    · rw [List.append_assoc]
      refine .dropped hx ?_ (.inr (.inr ⟨c, hc, rfl⟩)) ih
      intro t' ht' hp; exact hno' t' ht' (by rw [List.append_assoc]; exact hp)

end BoolParser
