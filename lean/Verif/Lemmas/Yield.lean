import Verif.Lemmas.Fuel
import Verif.Lemmas.FuelEnough
/-!
# The tokens of a parse tree
-/

namespace BoolParser

/-- The token kind of an array operator. -/
def ArrOp.kind : ArrOp → TK
  | .containsAll => .cAll
  | .containsAny => .cAny

/-- The token kind of AND or OR. -/
def connKind (conj : Bool) : TK := if conj then .kAnd else .kOr

/-- `e1 , e2 … )`. -/
def closeKinds : List (List TK) → List TK
  | [] => [.rparen]
  | e :: es => .comma :: (e ++ closeKinds es)

/-- `( e1 , e2 … )`. -/
def listKinds : List (List TK) → List TK
  | [] => []
  | e :: es => .lparen :: (e ++ closeKinds es)

mutual
/-- The kinds of the tokens a tree was made from. -/
def Tree.kinds : Tree → List TK
  | .paren t => .lparen :: (t.kinds ++ [.rparen])
  | .not_ t => .kNot :: t.kinds
  | .cmp op l r => l.kinds ++ .cmp op :: r.kinds
  | .neg t => .arith .sub :: t.kinds
  | .arith op l r => l.kinds ++ .arith op :: r.kinds
  | .func f items => .fn f :: listKinds (kindsAll items)
  | .bin c l r => l.kinds ++ connKind c :: r.kinds
  | .types t e => if e then [] else [t.kind]
  | .to_ f lo hi => [f.kind, lo.kind, .kTo, hi.kind]
  | .in_ f neg items => f.kind :: ((if neg then [.kNot] else []) ++ .kIn :: listKinds (kindsAll items))
  | .array f op items => f.kind :: op.kind :: listKinds (kindsAll items)
def kindsAll : List Tree → List (List TK)
  | [] => []
  | t :: ts => t.kinds :: kindsAll ts
end

abbrev kindsOf (ts : List Token) : List TK := ts.map Token.kind

theorem binMk_kinds {k : TK} {b : BinTok} (h : binTok k = some b) (l r : Tree) :
    (b.mk l r).kinds = l.kinds ++ k :: r.kinds := by
  cases k <;> first | (cases h; done) | (cases h; simp [BinTok.mk, Tree.kinds, connKind])

theorem parse_kinds (f : Nat) :
    (∀ p ts x, pExpr f p ts = some x → kindsOf ts = x.1.kinds ++ kindsOf x.2) ∧
    (∀ ts x, pPrimary f ts = some x → kindsOf ts = x.1.kinds ++ kindsOf x.2) ∧
    (∀ t ts x, pAfterField f t ts = some x → kindsOf (t :: ts) = x.1.kinds ++ kindsOf x.2) ∧
    (∀ p l ts x, pLoop f p l ts = some x → l.kinds ++ kindsOf ts = x.1.kinds ++ kindsOf x.2) ∧
    (∀ ts x, pWordlist f ts = some x → kindsOf ts = listKinds (kindsAll x.1) ++ kindsOf x.2) ∧
    (∀ ts x, pMore f ts = some x → kindsOf ts = closeKinds (kindsAll x.1) ++ kindsOf x.2) := by
  induction f with
  | zero =>
    exact ⟨fun _ _ _ h => (by cases h), fun _ _ h => (by cases h), fun _ _ _ h => (by cases h),
      fun _ _ _ _ h => (by cases h), fun _ _ h => (by cases h), fun _ _ h => (by cases h)⟩
  | succ f ih =>
    obtain ⟨hE, hP, hA, hL, hW, hM⟩ := ih
    refine ⟨?_, ?_, ?_, ?_, ?_, ?_⟩
    · intro p ts x h
      rw [pExpr] at h
      split at h
      · rename_i t ts' e
        rw [hP _ _ e]; exact hL _ _ _ _ h
      · cases h
    · intro ts x h
      cases ts with
      | nil => rw [pPrimary] at h; injection h with h; subst h; rfl
      | cons t ts =>
        rw [pPrimary_cons] at h
        split at h
        · rename_i hk
          split at h
          · rename_i e r ts' e1
            have h1 := hE _ _ _ e1
            split at h
            · rename_i hr
              injection h with h; subst h
              simp only [kindsOf, List.map_cons, Tree.kinds, List.cons_append, List.append_assoc, List.nil_append] at h1 ⊢
              rw [h1, hk, hr]
            · cases h
          · cases h
        · rename_i hk
          split at h
          · rename_i e1
            have h1 := hE _ _ _ e1
            injection h with h; subst h
            simp only [kindsOf, List.map_cons, Tree.kinds, List.cons_append] at h1 ⊢
            rw [h1, hk]
          · cases h
        · rename_i hk
          split at h
          · rename_i e1
            have h1 := hE _ _ _ e1
            injection h with h; subst h
            simp only [kindsOf, List.map_cons, Tree.kinds, List.cons_append] at h1 ⊢
            rw [h1, hk]
          · cases h
        · rename_i g hk
          split at h
          · rename_i e1
            have h1 := hW _ _ e1
            injection h with h; subst h
            simp only [kindsOf, List.map_cons, Tree.kinds, List.cons_append] at h1 ⊢
            rw [h1, hk]
          · cases h
        · split at h
          · split at h
            · split at h
              · rename_i hto
                injection h with h; subst h
                simp [kindsOf, Tree.kinds, hto.1]
              · cases h
            · exact hA _ _ _ h
          · split at h
            · cases h
            · exact hA _ _ _ h
          · injection h with h; subst h; rfl
        · split at h
          · injection h with h; subst h; rfl
          · split at h
            · injection h with h; subst h; rfl
            · cases h
    · intro t ts x h
      cases ts with
      | nil => rw [pAfterField] at h; injection h with h; subst h; rfl
      | cons u us =>
        rw [pAfterField_cons] at h
        split at h
        · rename_i hk
          split at h
          · rename_i e1
            have h1 := hW _ _ e1
            injection h with h; subst h
            simp only [kindsOf, List.map_cons, Tree.kinds, List.cons_append] at h1 ⊢
            rw [h1, hk]; rfl
          · cases h
        · rename_i hk
          split at h
          · split at h
            · rename_i hv
              split at h
              · rename_i e1
                have h1 := hW _ _ e1
                injection h with h; subst h
                simp only [kindsOf, List.map_cons, Tree.kinds, List.cons_append] at h1 ⊢
                rw [h1, hk, hv]; rfl
              · cases h
            · cases h
          · cases h
        · rename_i hk
          split at h
          · rename_i e1
            have h1 := hW _ _ e1
            injection h with h; subst h
            simp only [kindsOf, List.map_cons, Tree.kinds, List.cons_append] at h1 ⊢
            rw [h1, hk]; rfl
          · cases h
        · rename_i hk
          split at h
          · rename_i e1
            have h1 := hW _ _ e1
            injection h with h; subst h
            simp only [kindsOf, List.map_cons, Tree.kinds, List.cons_append] at h1 ⊢
            rw [h1, hk]; rfl
          · cases h
        · injection h with h; subst h; rfl
    · intro p l ts x h
      cases ts with
      | nil => rw [pLoop] at h; injection h with h; subst h; rfl
      | cons t ts =>
        rw [pLoop] at h
        split at h
        · rename_i b hb
          split at h
          · split at h
            · rename_i e1
              have h1 := hE _ _ _ e1
              have h2 := hL _ _ _ _ h
              rw [← h2, binMk_kinds hb]
              simp only [kindsOf, List.map_cons, List.append_assoc, List.cons_append] at h1 ⊢
              rw [h1]
            · cases h
          · injection h with h; subst h; rfl
        · injection h with h; subst h; rfl
    · intro ts x h
      cases ts with
      | nil => rw [pWordlist] at h; cases h
      | cons t ts =>
        rw [pWordlist] at h
        split at h
        · rename_i hk
          split at h
          · rename_i e1
            have h1 := hE _ _ _ e1
            split at h
            · rename_i e2
              have h2 := hM _ _ e2
              injection h with h; subst h
              simp only [kindsOf, List.map_cons, kindsAll, listKinds, List.cons_append, List.append_assoc] at h1 h2 ⊢
              rw [h1, h2, hk]
            · cases h
          · cases h
        · cases h
    · intro ts x h
      cases ts with
      | nil => rw [pMore] at h; cases h
      | cons t ts =>
        rw [pMore] at h
        split at h
        · rename_i hk
          injection h with h; subst h
          simp only [kindsOf, List.map_cons, kindsAll, closeKinds, List.cons_append, List.nil_append, hk]
        · split at h
          · rename_i hk
            split at h
            · rename_i e1
              have h1 := hE _ _ _ e1
              split at h
              · rename_i e2
                have h2 := hM _ _ e2
                injection h with h; subst h
                simp only [kindsOf, List.map_cons, kindsAll, closeKinds, List.cons_append, List.append_assoc] at h1 h2 ⊢
                rw [h1, h2, hk]
              · cases h
            · cases h
          · cases h

/-- The tokens of the tree, in order, are the tokens it was parsed from. -/
theorem parseTokens_kinds {ts : List Token} {t : Tree} (h : parseTokens ts = some t) : t.kinds = kindsOf ts := by
  obtain ⟨f, hf⟩ := parseTokens_iff.mp h
  have := (parse_kinds f).1 _ _ _ hf
  simpa using this.symm

end BoolParser
