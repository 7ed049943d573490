import Verif.Lemmas.Fuel
/-!
# The parser's fuel always suffices
-/

namespace BoolParser

theorem fieldTail_eq {f g : Nat} {t : Token} {ts : List Token}
    (h : pAfterField f t ts = pAfterField g t ts) : fieldTail f t ts = fieldTail g t ts := by
  match ts with
  | [] => rfl
  | [lo] => simp only [fieldTail, h]
  | [lo, to_] => simp only [fieldTail, h]
  | lo :: to_ :: hi :: ts' => simp only [fieldTail, h]

/-- Beyond twice the number of tokens, the fuel does not matter. -/
theorem parse_stable (f : Nat) :
    (∀ p ts, 2 * ts.length + 2 ≤ f → pExpr f p ts = pExpr (f + 1) p ts) ∧
    (∀ ts, 2 * ts.length + 1 ≤ f → pPrimary f ts = pPrimary (f + 1) ts) ∧
    (∀ t ts, 2 * ts.length + 1 ≤ f → pAfterField f t ts = pAfterField (f + 1) t ts) ∧
    (∀ p l ts, 2 * ts.length + 1 ≤ f → pLoop f p l ts = pLoop (f + 1) p l ts) ∧
    (∀ ts, 2 * ts.length + 1 ≤ f → pWordlist f ts = pWordlist (f + 1) ts) ∧
    (∀ ts, 2 * ts.length + 1 ≤ f → pMore f ts = pMore (f + 1) ts) := by
  induction f with
  | zero =>
    refine ⟨?_, ?_, ?_, ?_, ?_, ?_⟩ <;> intros <;> omega
  | succ f ih =>
    obtain ⟨hE, hP, hA, hL, hW, hM⟩ := ih
    refine ⟨?_, ?_, ?_, ?_, ?_, ?_⟩
    · intro p ts h
      rw [pExpr, pExpr, ← hP ts (by omega)]
      cases e : pPrimary f ts with
      | none => rfl
      | some y =>
        have h1 := (parse_len f).2.1 _ _ e
        exact hL _ _ _ (by omega)
    · intro ts h
      cases ts with
      | nil => rfl
      | cons t ts =>
        simp only [List.length_cons] at h
        by_cases hf : t.kind = .field
        · rw [pPrimary_field _ _ _ hf, pPrimary_field _ _ _ hf]
          exact fieldTail_eq (hA _ _ (by omega))
        · rw [pPrimary_cons, pPrimary_cons, hE 0 ts (by omega), hE 15 ts (by omega),
            hE 13 ts (by omega), hW ts (by omega), hA t ts (by omega)]
    · intro t ts h
      cases ts with
      | nil => rfl
      | cons u us =>
        simp only [List.length_cons] at h
        rw [pAfterField_cons, pAfterField_cons, hW us (by omega)]
        cases us with
        | nil => rfl
        | cons v vs =>
          simp only [List.length_cons] at h
          simp only
          rw [hW vs (by omega)]
    · intro p l ts h
      cases ts with
      | nil => rfl
      | cons t ts =>
        simp only [List.length_cons] at h
        rw [pLoop, pLoop]
        cases hb : binTok t.kind with
        | none => rfl
        | some b =>
          simp only
          rw [← hE _ ts (by omega)]
          cases e : pExpr f (b.prec + 1) ts with
          | none => rfl
          | some y =>
            have h1 := (parse_len f).1 _ _ _ e
            simp only
            rw [hL _ _ _ (by omega)]
    · intro ts h
      cases ts with
      | nil => rfl
      | cons t ts =>
        simp only [List.length_cons] at h
        rw [pWordlist, pWordlist, ← hE _ ts (by omega)]
        cases e : pExpr f 0 ts with
        | none => rfl
        | some y =>
          have h1 := (parse_len f).1 _ _ _ e
          simp only
          rw [hM _ (by omega)]
    · intro ts h
      cases ts with
      | nil => rfl
      | cons t ts =>
        simp only [List.length_cons] at h
        rw [pMore, pMore, ← hE _ ts (by omega)]
        cases e : pExpr f 0 ts with
        | none => rfl
        | some y =>
          have h1 := (parse_len f).1 _ _ _ e
          simp only
          rw [hM _ (by omega)]

theorem pExpr_stable {f g p : Nat} {ts : List Token} (h : 2 * ts.length + 2 ≤ f) (hg : f ≤ g) :
    pExpr f p ts = pExpr g p ts := by
  induction hg with
  | refl => rfl
  | step hm ih => rw [ih]; exact (parse_stable _).1 _ _ (Nat.le_trans h hm)

/-- Any fuel at least `parseFuel` gives the same answer; in particular a syntax error reported by
`parseTokens` is not an effect of the fuel. -/
theorem parse_fuel_enough {g p : Nat} {ts : List Token} (h : parseFuel ts ≤ g) :
    pExpr g p ts = pExpr (parseFuel ts) p ts :=
  (pExpr_stable (by simp only [parseFuel]; omega) h).symm

/-- An answer at any fuel is the answer at `parseFuel`. -/
theorem pExpr_at_fuel {f p : Nat} {ts : List Token} {x : Tree × List Token}
    (h : pExpr f p ts = some x) : pExpr (parseFuel ts) p ts = some x := by
  rcases Nat.le_total f (parseFuel ts) with h1 | h1
  · exact pExpr_mono h1 h
  · rw [← parse_fuel_enough h1]; exact h

theorem parseTokens_of {f : Nat} {ts : List Token} {t : Tree}
    (h : pExpr f 0 ts = some (t, [])) : parseTokens ts = some t := by
  rw [parseTokens, pExpr_at_fuel h]

/-- `parseTokens` fails exactly when no amount of fuel gives a complete parse. -/
theorem parseTokens_iff {ts : List Token} {t : Tree} :
    parseTokens ts = some t ↔ ∃ f, pExpr f 0 ts = some (t, []) := by
  constructor
  · intro h
    refine ⟨parseFuel ts, ?_⟩
    rw [parseTokens] at h
    split at h
    · rename_i e; injection h with h; subst h; exact e
    · cases h
  · rintro ⟨f, h⟩; exact parseTokens_of h

end BoolParser
