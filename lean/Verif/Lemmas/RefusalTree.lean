import Verif.Lemmas.Yield
import Verif.Lemmas.Grammar
/-!
# Trees of the grammar (for C102)
-/

namespace BoolParser

mutual
/-- The tokens of a tree are where the grammar wants them. -/
def Tree.Gram : Tree → Prop
  | .paren t => t.Gram
  | .not_ t => t.Gram
  | .cmp _ l r => l.Gram ∧ r.Gram
  | .neg t => t.Gram
  | .arith _ l r => l.Gram ∧ r.Gram
  | .func _ items => items ≠ [] ∧ gramAll items
  | .bin _ l r => l.Gram ∧ r.Gram
  | .types t e => e = true ∨ t.kind ∈ typesKinds
  | .to_ f lo hi => f.kind = .field ∧ lo.kind ∈ numericKinds ∧ hi.kind ∈ numericKinds
  | .in_ f _ items => f.kind = .field ∧ items ≠ [] ∧ gramAll items
  | .array f _ items => f.kind = .field ∧ items ≠ [] ∧ gramAll items
def gramAll : List Tree → Prop
  | [] => True
  | t :: ts => t.Gram ∧ gramAll ts
end

theorem gram_mk {b : BinTok} {l r : Tree} (hl : l.Gram) (hr : r.Gram) : (b.mk l r).Gram := by
  cases b <;> exact ⟨hl, hr⟩

theorem field_types : TK.field ∈ typesKinds := by simp [typesKinds]

theorem parse_gram (f : Nat) :
    (∀ p ts x, pExpr f p ts = some x → x.1.Gram) ∧
    (∀ ts x, pPrimary f ts = some x → x.1.Gram) ∧
    (∀ t ts x, t.kind = .field → pAfterField f t ts = some x → x.1.Gram) ∧
    (∀ p l ts x, l.Gram → pLoop f p l ts = some x → x.1.Gram) ∧
    (∀ ts x, pWordlist f ts = some x → x.1 ≠ [] ∧ gramAll x.1) ∧
    (∀ ts x, pMore f ts = some x → gramAll x.1) := by
  induction f with
  | zero =>
    exact ⟨fun _ _ _ h => (by cases h), fun _ _ h => (by cases h), fun _ _ _ _ h => (by cases h),
      fun _ _ _ _ _ h => (by cases h), fun _ _ h => (by cases h), fun _ _ h => (by cases h)⟩
  | succ f ih =>
    obtain ⟨hE, hP, hA, hL, hW, hM⟩ := ih
    refine ⟨?_, ?_, ?_, ?_, ?_, ?_⟩
    · intro p ts x h
      rw [pExpr] at h
      split at h
      · rename_i t ts' e
        exact hL _ _ _ _ (hP _ _ e) h
      · cases h
    · intro ts x h
      cases ts with
      | nil => rw [pPrimary] at h; injection h with h; subst h; exact .inl rfl
      | cons t ts =>
        rw [pPrimary_cons] at h
        split at h
        · split at h
          · rename_i e r ts' e1
            split at h
            · injection h with h; subst h
              have h1 := hE _ _ _ e1
              exact h1
            · cases h
          · cases h
        · split at h
          · rename_i e1
            have h1 := hE _ _ _ e1
            injection h with h; subst h
            exact h1
          · cases h
        · split at h
          · rename_i e1
            have h1 := hE _ _ _ e1
            injection h with h; subst h
            exact h1
          · cases h
        · split at h
          · rename_i e1
            injection h with h; subst h
            exact hW _ _ e1
          · cases h
        · rename_i hk
          split at h
          · split at h
            · rename_i hlo
              split at h
              · rename_i hto
                injection h with h; subst h
                exact ⟨hk, num_kinds.1 hlo, num_kinds.1 hto.2⟩
              · cases h
            · exact hA _ _ _ hk h
          · split at h
            · cases h
            · exact hA _ _ _ hk h
          · injection h with h; subst h; exact .inr (by rw [hk]; exact field_types)
        · split at h
          · rename_i hl
            injection h with h; subst h; exact .inr (lit_types hl)
          · split at h
            · injection h with h; subst h; exact .inl rfl
            · cases h
    · intro t ts x hk h
      cases ts with
      | nil => rw [pAfterField] at h; injection h with h; subst h; exact .inr (by rw [hk]; exact field_types)
      | cons u us =>
        rw [pAfterField_cons] at h
        split at h
        · split at h
          · rename_i e1
            injection h with h; subst h
            exact ⟨hk, hW _ _ e1⟩
          · cases h
        · split at h
          · split at h
            · split at h
              · rename_i e1
                injection h with h; subst h
                exact ⟨hk, hW _ _ e1⟩
              · cases h
            · cases h
          · cases h
        · split at h
          · rename_i e1
            injection h with h; subst h
            exact ⟨hk, hW _ _ e1⟩
          · cases h
        · split at h
          · rename_i e1
            injection h with h; subst h
            exact ⟨hk, hW _ _ e1⟩
          · cases h
        · injection h with h; subst h; exact .inr (by rw [hk]; exact field_types)
    · intro p l ts x hl h
      cases ts with
      | nil => rw [pLoop] at h; injection h with h; subst h; exact hl
      | cons t ts =>
        rw [pLoop] at h
        split at h
        · split at h
          · split at h
            · rename_i r ts' e1
              exact hL _ _ _ _ (gram_mk hl (hE _ _ _ e1)) h
            · cases h
          · injection h with h; subst h; exact hl
        · injection h with h; subst h; exact hl
    · intro ts x h
      cases ts with
      | nil => rw [pWordlist] at h; cases h
      | cons t ts =>
        rw [pWordlist] at h
        split at h
        · split at h
          · rename_i e1
            split at h
            · rename_i e2
              injection h with h; subst h
              exact ⟨by simp, hE _ _ _ e1, hM _ _ e2⟩
            · cases h
          · cases h
        · cases h
    · intro ts x h
      cases ts with
      | nil => rw [pMore] at h; cases h
      | cons t ts =>
        rw [pMore] at h
        split at h
        · injection h with h; subst h; trivial
        · split at h
          · split at h
            · rename_i e1
              split at h
              · rename_i e2
                injection h with h; subst h
                exact ⟨hE _ _ _ e1, hM _ _ e2⟩
              · cases h
            · cases h
          · cases h

theorem parseTokens_gram {ts : List Token} {t : Tree} (h : parseTokens ts = some t) : t.Gram := by
  rw [parseTokens] at h
  split at h
  · rename_i e
    injection h with h; subst h
    exact (parse_gram _).1 _ _ _ e
  · cases h

theorem closeKinds_flat (es : List (List TK)) : closeKinds es = es.flatMap (fun x => .comma :: x) ++ [.rparen] := by
  induction es with
  | nil => rfl
  | cons e es ih => rw [closeKinds, ih]; simp

mutual
theorem gram_expr : ∀ {t : Tree}, t.Gram → Expression t.kinds
  | .paren t, h => .paren (gram_expr (t := t) h)
  | .not_ t, h => .not_ (gram_expr (t := t) h)
  | .cmp op l r, h => .between (by cases op <;> simp [betweenKinds]) (gram_expr h.1) (gram_expr h.2)
  | .neg t, h => .minus (gram_expr (t := t) h)
  | .arith op l r, h => .between (by cases op <;> simp [betweenKinds]) (gram_expr h.1) (gram_expr h.2)
  | .func f items, h => by
    obtain ⟨e, es, e1, he, hes⟩ := gram_list h.1 h.2
    rw [Tree.kinds, e1]
    exact .func he hes
  | .bin c l r, h => .between (by cases c <;> simp [connKind, betweenKinds]) (gram_expr h.1) (gram_expr h.2)
  | .types t e, h => by
    rw [Tree.kinds]
    split
    · exact .omitted
    · rename_i he
      exact .types (h.resolve_left he)
  | .to_ f lo hi, h => by rw [Tree.kinds, h.1]; exact .to_ h.2.1 h.2.2
  | .in_ f no items, h => by
    obtain ⟨e, es, e1, he, hes⟩ := gram_list h.2.1 h.2.2
    rw [Tree.kinds, e1, h.1]
    cases no
    · exact .in_ he hes
    · exact .notIn he hes
  | .array f op items, h => by
    obtain ⟨e, es, e1, he, hes⟩ := gram_list h.2.1 h.2.2
    rw [Tree.kinds, e1, h.1]
    exact .array (by cases op <;> simp [ArrOp.kind, arrayKinds]) he hes
theorem gram_list : ∀ {ts : List Tree}, ts ≠ [] → gramAll ts →
    ∃ e es, listKinds (kindsAll ts) = wordlist e es ∧ Expression e ∧ ∀ x ∈ es, Expression x
  | [], h, _ => absurd rfl h
  | t :: ts, _, h => ⟨t.kinds, kindsAll ts, by rw [kindsAll, listKinds, closeKinds_flat]; rfl, gram_expr h.1, gram_all h.2⟩
theorem gram_all : ∀ {ts : List Tree}, gramAll ts → ∀ x ∈ kindsAll ts, Expression x
  | [], _ => fun x hx => by cases hx
  | t :: ts, h => fun x hx => by
    rw [kindsAll, List.mem_cons] at hx
    rcases hx with rfl | hx
    · exact gram_expr h.1
    · exact gram_all h.2 x hx
end

end BoolParser
