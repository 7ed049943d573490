import Verif.Model.Parser
import Mathlib.Tactic.Linarith
/-!
# The fuel of the parser never runs out
-/

namespace BoolParser

theorem pPrimary_cons (f : Nat) (t : Token) (ts : List Token) : pPrimary (f + 1) (t :: ts) =
    match t.kind with
    | .lparen =>
      match pExpr f 0 ts with
      | some (e, r :: ts') => if r.kind = .rparen then some (.paren e, ts') else none
      | _ => none
    | .kNot =>
      match pExpr f 15 ts with
      | some (e, ts') => some (.not_ e, ts')
      | none => none
    | .arith .sub =>
      match pExpr f 13 ts with
      | some (e, ts') => some (.neg e, ts')
      | none => none
    | .fn g =>
      match pWordlist f ts with
      | some (es, ts') => some (.func g es, ts')
      | none => none
    | .field =>
      match ts with
      | lo :: to_ :: hi :: ts' =>
        if isNumKind lo.kind then
          (if to_.kind = .kTo ∧ isNumKind hi.kind then some (.to_ t lo hi, ts') else none)
        else pAfterField f t ts
      | lo :: _ => if isNumKind lo.kind then none else pAfterField f t ts
      | [] => some (.types t false, [])
    | k =>
      if isLitKind k then some (.types t false, ts)
      else if isEmptyFollow k then some (.types t true, t :: ts)
      else none := by
  rfl

theorem pAfterField_cons (f : Nat) (t u : Token) (us : List Token) : pAfterField (f + 1) t (u :: us) =
    match u.kind with
    | .kIn =>
      match pWordlist f us with
      | some (es, ts') => some (.in_ t false es, ts')
      | none => none
    | .kNot =>
      match us with
      | v :: vs =>
        if v.kind = .kIn then
          match pWordlist f vs with
          | some (es, ts') => some (.in_ t true es, ts')
          | none => none
        else none
      | [] => none
    | .cAll =>
      match pWordlist f us with
      | some (es, ts') => some (.array t .containsAll es, ts')
      | none => none
    | .cAny =>
      match pWordlist f us with
      | some (es, ts') => some (.array t .containsAny es, ts')
      | none => none
    | _ => some (.types t false, u :: us) := by
  rfl

/-- `pPrimary` after a FIELD token. -/
def fieldTail (f : Nat) (t : Token) (ts : List Token) : Option (Tree × List Token) :=
  match ts with
  | lo :: to_ :: hi :: ts' =>
    if isNumKind lo.kind then
      (if to_.kind = .kTo ∧ isNumKind hi.kind then some (.to_ t lo hi, ts') else none)
    else pAfterField f t ts
  | lo :: _ => if isNumKind lo.kind then none else pAfterField f t ts
  | [] => some (.types t false, [])

theorem pPrimary_field (f : Nat) (t : Token) (ts : List Token) (h : t.kind = .field) :
    pPrimary (f + 1) (t :: ts) = fieldTail f t ts := by
  rw [pPrimary_cons, h]; rfl

theorem fieldTail_congr {f g : Nat} {t : Token} {ts : List Token} {x : Tree × List Token}
    (h : pAfterField f t ts = some x → pAfterField g t ts = some x) :
    fieldTail f t ts = some x → fieldTail g t ts = some x := by
  match ts with
  | [] => exact id
  | [lo] =>
    simp only [fieldTail]
    cases isNumKind lo.kind
    · simpa using h
    · simp
  | [lo, to_] =>
    simp only [fieldTail]
    cases isNumKind lo.kind
    · simpa using h
    · simp
  | lo :: to_ :: hi :: ts' =>
    simp only [fieldTail]
    cases isNumKind lo.kind
    · simpa using h
    · exact id

/-- More fuel does not change an answer. -/
theorem parse_mono (f : Nat) :
    (∀ p ts x, pExpr f p ts = some x → pExpr (f + 1) p ts = some x) ∧
    (∀ ts x, pPrimary f ts = some x → pPrimary (f + 1) ts = some x) ∧
    (∀ t ts x, pAfterField f t ts = some x → pAfterField (f + 1) t ts = some x) ∧
    (∀ p l ts x, pLoop f p l ts = some x → pLoop (f + 1) p l ts = some x) ∧
    (∀ ts x, pWordlist f ts = some x → pWordlist (f + 1) ts = some x) ∧
    (∀ ts x, pMore f ts = some x → pMore (f + 1) ts = some x) := by
  induction f with
  | zero =>
    refine ⟨?_, ?_, ?_, ?_, ?_, ?_⟩ <;> intros <;> rename_i h <;> cases h
  | succ f ih =>
    obtain ⟨hE, hP, hA, hL, hW, hM⟩ := ih
    refine ⟨?_, ?_, ?_, ?_, ?_, ?_⟩
    · intro p ts x h
      rw [pExpr] at h ⊢
      cases e : pPrimary f ts with
      | none => simp [e] at h
      | some y =>
        rw [hP _ _ e]
        simp only [e] at h
        exact hL _ _ _ _ h
    · intro ts x h
      cases ts with
      | nil => exact h
      | cons t ts =>
        by_cases hf : t.kind = .field
        · rw [pPrimary_field _ _ _ hf] at h ⊢
          exact fieldTail_congr (hA _ _ _) h
        rw [pPrimary_cons] at h ⊢
        cases hk : t.kind with
        | field => exact absurd hk hf
        | lparen =>
          simp only [hk] at h ⊢
          cases e : pExpr f 0 ts with
          | none => simp [e] at h
          | some y => rw [hE _ _ _ e]; simp only [e] at h; exact h
        | kNot =>
          simp only [hk] at h ⊢
          cases e : pExpr f 15 ts with
          | none => simp [e] at h
          | some y => rw [hE _ _ _ e]; simp only [e] at h; exact h
        | arith op =>
          cases op with
          | sub =>
            simp only [hk] at h ⊢
            cases e : pExpr f 13 ts with
            | none => simp [e] at h
            | some y => rw [hE _ _ _ e]; simp only [e] at h; exact h
          | _ => simp only [hk] at h ⊢; exact h
        | fn g =>
          simp only [hk] at h ⊢
          cases e : pWordlist f ts with
          | none => simp [e] at h
          | some y => rw [hW _ _ e]; simp only [e] at h; exact h
        | _ => simp only [hk] at h ⊢; exact h
    · intro t ts x h
      cases ts with
      | nil => exact h
      | cons u us =>
        rw [pAfterField_cons] at h ⊢
        cases hk : u.kind with
        | kIn =>
          simp only [hk] at h ⊢
          cases e : pWordlist f us with
          | none => simp [e] at h
          | some y => rw [hW _ _ e]; simp only [e] at h; exact h
        | kNot =>
          simp only [hk] at h ⊢
          cases us with
          | nil => exact h
          | cons v vs =>
            simp only at h ⊢
            by_cases hv : v.kind = .kIn
            · simp only [hv, if_true] at h ⊢
              cases e : pWordlist f vs with
              | none => simp [e] at h
              | some y => rw [hW _ _ e]; simp only [e] at h; exact h
            · simp [hv] at h
        | cAll =>
          simp only [hk] at h ⊢
          cases e : pWordlist f us with
          | none => simp [e] at h
          | some y => rw [hW _ _ e]; simp only [e] at h; exact h
        | cAny =>
          simp only [hk] at h ⊢
          cases e : pWordlist f us with
          | none => simp [e] at h
          | some y => rw [hW _ _ e]; simp only [e] at h; exact h
        | _ => simp only [hk] at h ⊢; exact h
    · intro p l ts x h
      cases ts with
      | nil => exact h
      | cons t ts =>
        rw [pLoop] at h ⊢
        cases hb : binTok t.kind with
        | none => simp only [hb] at h ⊢; exact h
        | some b =>
          simp only [hb] at h ⊢
          by_cases hp : p ≤ b.prec
          · simp only [if_pos hp] at h ⊢
            cases e : pExpr f (b.prec + 1) ts with
            | none => simp [e] at h
            | some y =>
              rw [hE _ _ _ e]; simp only [e] at h
              exact hL _ _ _ _ h
          · simp only [if_neg hp] at h ⊢; exact h
    · intro ts x h
      cases ts with
      | nil => exact h
      | cons t ts =>
        rw [pWordlist] at h ⊢
        by_cases hk : t.kind = .lparen
        · simp only [if_pos hk] at h ⊢
          cases e : pExpr f 0 ts with
          | none => simp [e] at h
          | some y =>
            rw [hE _ _ _ e]; simp only [e] at h ⊢
            cases e2 : pMore f y.2 with
            | none => simp [e2] at h
            | some z => rw [hM _ _ e2]; simp only [e2] at h ⊢; exact h
        · simp [hk] at h
    · intro ts x h
      cases ts with
      | nil => exact h
      | cons t ts =>
        rw [pMore] at h ⊢
        by_cases hk : t.kind = .rparen
        · simp only [if_pos hk] at h ⊢; exact h
        · simp only [if_neg hk] at h ⊢
          by_cases hk2 : t.kind = .comma
          · simp only [if_pos hk2] at h ⊢
            cases e : pExpr f 0 ts with
            | none => simp [e] at h
            | some y =>
              rw [hE _ _ _ e]; simp only [e] at h ⊢
              cases e2 : pMore f y.2 with
              | none => simp [e2] at h
              | some z => rw [hM _ _ e2]; simp only [e2] at h ⊢; exact h
          · simp [hk2] at h

theorem pExpr_mono {f g p : Nat} {ts : List Token} {x : Tree × List Token} (h : f ≤ g)
    (e : pExpr f p ts = some x) : pExpr g p ts = some x := by
  induction h with
  | refl => exact e
  | step _ ih => exact (parse_mono _).1 _ _ _ ih

theorem pPrimary_mono {f g : Nat} {ts : List Token} {x : Tree × List Token} (h : f ≤ g)
    (e : pPrimary f ts = some x) : pPrimary g ts = some x := by
  induction h with
  | refl => exact e
  | step _ ih => exact (parse_mono _).2.1 _ _ ih

theorem pAfterField_mono {f g : Nat} {t : Token} {ts : List Token} {x : Tree × List Token} (h : f ≤ g)
    (e : pAfterField f t ts = some x) : pAfterField g t ts = some x := by
  induction h with
  | refl => exact e
  | step _ ih => exact (parse_mono _).2.2.1 _ _ _ ih

theorem pLoop_mono {f g p : Nat} {l : Tree} {ts : List Token} {x : Tree × List Token} (h : f ≤ g)
    (e : pLoop f p l ts = some x) : pLoop g p l ts = some x := by
  induction h with
  | refl => exact e
  | step _ ih => exact (parse_mono _).2.2.2.1 _ _ _ _ ih

theorem pWordlist_mono {f g : Nat} {ts : List Token} {x : List Tree × List Token} (h : f ≤ g)
    (e : pWordlist f ts = some x) : pWordlist g ts = some x := by
  induction h with
  | refl => exact e
  | step _ ih => exact (parse_mono _).2.2.2.2.1 _ _ ih

theorem pMore_mono {f g : Nat} {ts : List Token} {x : List Tree × List Token} (h : f ≤ g)
    (e : pMore f ts = some x) : pMore g ts = some x := by
  induction h with
  | refl => exact e
  | step _ ih => exact (parse_mono _).2.2.2.2.2 _ _ ih

/-- What is left over is never longer. -/
theorem parse_len (f : Nat) :
    (∀ p ts x, pExpr f p ts = some x → x.2.length ≤ ts.length) ∧
    (∀ ts x, pPrimary f ts = some x → x.2.length ≤ ts.length) ∧
    (∀ t ts x, pAfterField f t ts = some x → x.2.length ≤ ts.length) ∧
    (∀ p l ts x, pLoop f p l ts = some x → x.2.length ≤ ts.length) ∧
    (∀ ts x, pWordlist f ts = some x → x.2.length < ts.length) ∧
    (∀ ts x, pMore f ts = some x → x.2.length < ts.length) := by
  induction f with
  | zero =>
    refine ⟨?_, ?_, ?_, ?_, ?_, ?_⟩ <;> intros <;> rename_i h <;> cases h
  | succ f ih =>
    obtain ⟨hE, hP, hA, hL, hW, hM⟩ := ih
    refine ⟨?_, ?_, ?_, ?_, ?_, ?_⟩
    · intro p ts x h
      rw [pExpr] at h
      split at h
      · rename_i t ts' e
        have h1 := hP _ _ e
        have h2 := hL _ _ _ _ h
        simp only at h1; omega
      · cases h
    · intro ts x h
      cases ts with
      | nil => rw [pPrimary] at h; injection h with h; subst h; simp
      | cons t ts =>
        rw [pPrimary_cons] at h
        split at h
        · split at h
          · rename_i e r ts' e1
            have h1 := hE _ _ _ e1
            split at h
            · injection h with h; subst h
              simp only [List.length_cons] at h1 ⊢; omega
            · cases h
          · cases h
        · split at h
          · rename_i e1
            have h1 := hE _ _ _ e1
            injection h with h; subst h
            simp only [List.length_cons] at h1 ⊢; omega
          · cases h
        · split at h
          · rename_i e1
            have h1 := hE _ _ _ e1
            injection h with h; subst h
            simp only [List.length_cons] at h1 ⊢; omega
          · cases h
        · split at h
          · rename_i e1
            have h1 := hW _ _ e1
            injection h with h; subst h
            simp only [List.length_cons] at h1 ⊢; omega
          · cases h
        · split at h
          · split at h
            · split at h
              · injection h with h; subst h
                simp only [List.length_cons]; omega
              · cases h
            · have h1 := hA _ _ _ h
              simp only [List.length_cons] at h1 ⊢; omega
          · split at h
            · cases h
            · have h1 := hA _ _ _ h
              simp only [List.length_cons] at h1 ⊢; omega
          · injection h with h; subst h; simp
        · split at h
          · injection h with h; subst h; simp
          · split at h
            · injection h with h; subst h; simp
            · cases h
    · intro t ts x h
      cases ts with
      | nil => rw [pAfterField] at h; injection h with h; subst h; simp
      | cons u us =>
        rw [pAfterField_cons] at h
        split at h
        · split at h
          · rename_i e1
            have h1 := hW _ _ e1
            injection h with h; subst h
            simp only [List.length_cons] at h1 ⊢; omega
          · cases h
        · split at h
          · split at h
            · split at h
              · rename_i e1
                have h1 := hW _ _ e1
                injection h with h; subst h
                simp only [List.length_cons] at h1 ⊢; omega
              · cases h
            · cases h
          · cases h
        · split at h
          · rename_i e1
            have h1 := hW _ _ e1
            injection h with h; subst h
            simp only [List.length_cons] at h1 ⊢; omega
          · cases h
        · split at h
          · rename_i e1
            have h1 := hW _ _ e1
            injection h with h; subst h
            simp only [List.length_cons] at h1 ⊢; omega
          · cases h
        · injection h with h; subst h; simp
    · intro p l ts x h
      cases ts with
      | nil => rw [pLoop] at h; injection h with h; subst h; simp
      | cons t ts =>
        rw [pLoop] at h
        split at h
        · split at h
          · split at h
            · rename_i e1
              have h1 := hE _ _ _ e1
              have h2 := hL _ _ _ _ h
              simp only [List.length_cons] at h1 ⊢; omega
            · cases h
          · injection h with h; subst h; simp
        · injection h with h; subst h; simp
    · intro ts x h
      cases ts with
      | nil => rw [pWordlist] at h; cases h
      | cons t ts =>
        rw [pWordlist] at h
        split at h
        · split at h
          · rename_i e1
            have h1 := hE _ _ _ e1
            split at h
            · rename_i e2
              have h2 := hM _ _ e2
              injection h with h; subst h
              simp only [List.length_cons] at h1 h2 ⊢; omega
            · cases h
          · cases h
        · cases h
    · intro ts x h
      cases ts with
      | nil => rw [pMore] at h; cases h
      | cons t ts =>
        rw [pMore] at h
        split at h
        · injection h with h; subst h; simp
        · split at h
          · split at h
            · rename_i e1
              have h1 := hE _ _ _ e1
              split at h
              · rename_i e2
                have h2 := hM _ _ e2
                injection h with h; subst h
                simp only [List.length_cons] at h1 h2 ⊢; omega
              · cases h
            · cases h
          · cases h

end BoolParser
