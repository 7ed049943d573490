import Verif.Lemmas.Grammar
import Verif.Model.Listener
/-!
# Parsing a piece of a longer text

The parser reads a piece followed by `)` as it reads the piece alone, unless an operand is missing at the very
end of the piece.
-/

namespace BoolParser

mutual
/-- No operand was left out at the end of the text. -/
def Tree.closed : Tree → Bool
  | .paren t => t.closed
  | .not_ t => t.closed
  | .cmp _ l r => l.closed && r.closed
  | .neg t => t.closed
  | .arith _ l r => l.closed && r.closed
  | .func _ items => Tree.closedAll items
  | .bin _ l r => l.closed && r.closed
  | .types t empty => !(empty && t.kind == .eof)
  | .to_ _ _ _ => true
  | .in_ _ _ items => Tree.closedAll items
  | .array _ _ items => Tree.closedAll items
def Tree.closedAll : List Tree → Bool
  | [] => true
  | t :: ts => t.closed && Tree.closedAll ts
end

theorem closed_mk (b : BinTok) (l r : Tree) : (b.mk l r).closed = (l.closed && r.closed) := by
  cases b <;> rfl

theorem pLoop_closed {f p : Nat} {l : Tree} {ts : List Token} {x : Tree × List Token} (h : pLoop f p l ts = some x)
    (hx : x.1.closed = true) : l.closed = true := by
  induction f generalizing l ts with
  | zero => cases h
  | succ f ih =>
    cases ts with
    | nil => rw [pLoop] at h; cases h; exact hx
    | cons t ts =>
      rw [pLoop] at h
      split at h
      · split at h
        · split at h
          · have := ih h
            rw [closed_mk, Bool.and_eq_true] at this
            exact this.1
          · cases h
        · cases h; exact hx
      · cases h; exact hx

/-- Tokens that do not continue a field name. -/
def plainKind : TK → Bool
  | .kIn | .kNot | .cAll | .cAny | .integer | .decimal => false
  | _ => true

/-- The text of the tree ends with a field name. -/
def Tree.endsName : Tree → Bool
  | .types t e => !e && t.kind == .field
  | .not_ t => t.endsName
  | .neg t => t.endsName
  | .cmp _ _ r => r.endsName
  | .arith _ _ r => r.endsName
  | .bin _ _ r => r.endsName
  | _ => false

/-- A token of kind `k` after the parsed text does not change how its end is read. -/
def Fits (k : TK) (x : Tree × List Token) : Prop := plainKind k = true ∨ x.2 ≠ [] ∨ x.1.endsName = false

theorem Fits.plain {k : TK} {t : Token} (h : Fits k (.types t false, [])) (ht : t.kind = .field) : plainKind k = true := by
  rcases h with h | h | h
  · exact h
  · exact absurd rfl h
  · simp [Tree.endsName, ht] at h

theorem plain_not_num {k : TK} (h : plainKind k = true) : isNumKind k = false := by
  cases k <;> first | rfl | cases h

theorem endsName_mk (b : BinTok) (l r : Tree) : (b.mk l r).endsName = r.endsName := by cases b <;> rfl

theorem Fits.right {k : TK} {b : BinTok} {l r : Tree} {ts : List Token} (h : Fits k (b.mk l r, ts)) : Fits k (r, ts) := by
  rcases h with h | h | h
  · exact .inl h
  · exact .inr (.inl h)
  · rw [endsName_mk] at h; exact .inr (.inr h)

theorem loop_fits {k : TK} {f p : Nat} {l : Tree} {ts : List Token} {x : Tree × List Token}
    (h : pLoop f p l ts = some x) (hf : Fits k x) : Fits k (l, ts) := by
  cases ts with
  | cons t ts => exact .inr (.inl (by simp))
  | nil =>
    cases f with
    | zero => cases h
    | succ f => rw [pLoop] at h; cases h; exact hf

theorem more_ne {f : Nat} {ts : List Token} {x : List Tree × List Token} (h : pMore f ts = some x) : ts ≠ [] := by
  rintro rfl
  cases f <;> cases h

theorem fieldTail_local {f : Nat} {t u : Token} {ts us : List Token} {x : Tree × List Token}
    (ht : t.kind = .field)
    (ha : ∀ x, pAfterField f t ts = some x → x.1.closed = true → Fits u.kind x →
      pAfterField (f + 1) t (ts ++ u :: us) = some (x.1, x.2 ++ u :: us))
    (hx : x.1.closed = true) (hfit : Fits u.kind x) :
    fieldTail f t ts = some x → fieldTail (f + 1) t (ts ++ u :: us) = some (x.1, x.2 ++ u :: us) := by
  match ts with
  | [] =>
    intro h
    rw [fieldTail] at h
    cases h
    have hp := hfit.plain ht
    have hn : isNumKind u.kind = false := plain_not_num hp
    have ha : pAfterField (f + 1) t (u :: us) = some (.types t false, u :: us) := by
      rw [pAfterField_cons]
      cases hk : u.kind <;> rw [hk] at hp <;> first | rfl | cases hp
    cases us with
    | nil => simpa [fieldTail, hn] using ha
    | cons v vs => cases vs <;> simpa [fieldTail, hn] using ha
  | [lo] =>
    intro h
    simp only [fieldTail] at h
    cases hn : isNumKind lo.kind
    · rw [hn] at h
      have := ha x (by simpa using h) hx hfit
      cases us with
      | nil => simpa [fieldTail, hn] using this
      | cons v vs => simpa [fieldTail, hn] using this
    · rw [hn] at h; cases h
  | [lo, to_] =>
    intro h
    simp only [fieldTail] at h
    cases hn : isNumKind lo.kind
    · rw [hn] at h
      have := ha x (by simpa using h) hx hfit
      simpa [fieldTail, hn] using this
    · rw [hn] at h; cases h
  | lo :: to_ :: hi :: ts' =>
    intro h
    simp only [fieldTail] at h
    cases hn : isNumKind lo.kind
    · rw [hn] at h
      have := ha x (by simpa using h) hx hfit
      simpa [fieldTail, hn] using this
    · rw [hn, if_pos rfl] at h
      split at h
      · cases h; simp only [List.cons_append, fieldTail]; rw [hn, if_pos rfl, if_pos ‹_›]
      · cases h

theorem parse_local {u : Token} (hu : binTok u.kind = none) (us : List Token) (f : Nat) :
    (∀ p ts x, pExpr f p ts = some x → x.1.closed = true → Fits u.kind x → pExpr (f + 1) p (ts ++ u :: us) = some (x.1, x.2 ++ u :: us)) ∧
    (∀ ts x, pPrimary f ts = some x → x.1.closed = true → Fits u.kind x → pPrimary (f + 1) (ts ++ u :: us) = some (x.1, x.2 ++ u :: us)) ∧
    (∀ t ts x, t.kind = .field → pAfterField f t ts = some x → x.1.closed = true → Fits u.kind x →
      pAfterField (f + 1) t (ts ++ u :: us) = some (x.1, x.2 ++ u :: us)) ∧
    (∀ p l ts x, pLoop f p l ts = some x → x.1.closed = true → Fits u.kind x →
      pLoop (f + 1) p l (ts ++ u :: us) = some (x.1, x.2 ++ u :: us)) ∧
    (∀ ts x, pWordlist f ts = some x → Tree.closedAll x.1 = true →
      pWordlist (f + 1) (ts ++ u :: us) = some (x.1, x.2 ++ u :: us)) ∧
    (∀ ts x, pMore f ts = some x → Tree.closedAll x.1 = true → pMore (f + 1) (ts ++ u :: us) = some (x.1, x.2 ++ u :: us)) := by
  induction f with
  | zero => refine ⟨?_, ?_, ?_, ?_, ?_, ?_⟩ <;> intros <;> simp_all [pExpr, pPrimary, pAfterField, pLoop, pWordlist, pMore]
  | succ f ih =>
    obtain ⟨hE, hP, hA, hL, hW, hM⟩ := ih
    refine ⟨?_, ?_, ?_, ?_, ?_, ?_⟩
    · intro p ts x h hx hfit
      rw [pExpr] at h ⊢
      cases e : pPrimary f ts with
      | none => simp [e] at h
      | some y =>
        simp only [e] at h
        rw [hP _ _ e (pLoop_closed h hx) (loop_fits h hfit)]
        exact hL _ _ _ _ h hx hfit
    · intro ts x h hx hfit
      cases ts with
      | nil => rw [pPrimary] at h; cases h; cases hx
      | cons t ts =>
        by_cases hf : t.kind = .field
        · rw [List.cons_append, pPrimary_field _ _ _ hf]
          rw [pPrimary_field _ _ _ hf] at h
          exact fieldTail_local hf (fun x => hA t ts x hf) hx hfit h
        rw [pPrimary_cons] at h
        rw [List.cons_append, pPrimary_cons]
        cases hk : t.kind with
        | field => exact absurd hk hf
        | lparen =>
          simp only [hk] at h ⊢
          cases e : pExpr f 0 ts with
          | none => simp [e] at h
          | some y =>
            simp only [e] at h
            obtain ⟨e1, rest⟩ := y
            cases rest with
            | nil => cases h
            | cons r ts' =>
              simp only at h
              by_cases hr : r.kind = .rparen
              · rw [if_pos hr] at h; cases h
                rw [hE _ _ _ e hx (.inr (.inl (by simp)))]
                simp [hr]
              · rw [if_neg hr] at h; cases h
        | kNot =>
          simp only [hk] at h ⊢
          cases e : pExpr f 15 ts with
          | none => simp [e] at h
          | some y => simp only [e] at h; cases h; rw [hE _ _ _ e hx hfit]
        | arith op =>
          cases op with
          | sub =>
            simp only [hk] at h ⊢
            cases e : pExpr f 13 ts with
            | none => simp [e] at h
            | some y => simp only [e] at h; cases h; rw [hE _ _ _ e hx hfit]
          | _ => simp only [hk] at h ⊢; cases h; rfl
        | fn g =>
          simp only [hk] at h ⊢
          cases e : pWordlist f ts with
          | none => simp [e] at h
          | some y => simp only [e] at h; cases h; rw [hW _ _ e hx]
        | _ => simp only [hk] at h ⊢; cases h; try rfl
    · intro t ts x ht h hx hfit
      cases ts with
      | nil =>
        rw [pAfterField] at h; cases h; rw [List.nil_append, pAfterField_cons]
        have hp := hfit.plain ht
        cases hk : u.kind <;> rw [hk] at hp <;> first | rfl | cases hp
      | cons v vs =>
        rw [pAfterField_cons] at h
        rw [List.cons_append, pAfterField_cons]
        cases hk : v.kind with
        | kIn =>
          simp only [hk] at h ⊢
          cases e : pWordlist f vs with
          | none => simp [e] at h
          | some y => simp only [e] at h; cases h; rw [hW _ _ e hx]
        | kNot =>
          simp only [hk] at h ⊢
          cases vs with
          | nil => cases h
          | cons w ws =>
            simp only [List.cons_append] at h ⊢
            by_cases hv : w.kind = .kIn
            · simp only [hv, if_true] at h ⊢
              cases e : pWordlist f ws with
              | none => simp [e] at h
              | some y => simp only [e] at h; cases h; rw [hW _ _ e hx]
            · simp [hv] at h
        | cAll =>
          simp only [hk] at h ⊢
          cases e : pWordlist f vs with
          | none => simp [e] at h
          | some y => simp only [e] at h; cases h; rw [hW _ _ e hx]
        | cAny =>
          simp only [hk] at h ⊢
          cases e : pWordlist f vs with
          | none => simp [e] at h
          | some y => simp only [e] at h; cases h; rw [hW _ _ e hx]
        | _ => simp only [hk] at h ⊢; cases h; rfl
    · intro p l ts x h hx hfit
      cases ts with
      | nil =>
        rw [pLoop] at h; cases h
        rw [List.nil_append, pLoop, hu]
      | cons t ts =>
        rw [pLoop] at h
        rw [List.cons_append, pLoop]
        cases hb : binTok t.kind with
        | none => simp only [hb] at h ⊢; cases h; rfl
        | some b =>
          simp only [hb] at h ⊢
          by_cases hp : p ≤ b.prec
          · simp only [if_pos hp] at h ⊢
            cases e : pExpr f (b.prec + 1) ts with
            | none => simp [e] at h
            | some y =>
              simp only [e] at h
              have hc := pLoop_closed h hx
              rw [closed_mk, Bool.and_eq_true] at hc
              rw [hE _ _ _ e hc.2 ((loop_fits h hfit).right)]
              exact hL _ _ _ _ h hx hfit
          · simp only [if_neg hp] at h ⊢; cases h; rfl
    · intro ts x h hx
      cases ts with
      | nil => cases h
      | cons t ts =>
        rw [pWordlist] at h
        rw [List.cons_append, pWordlist]
        by_cases hk : t.kind = .lparen
        · simp only [if_pos hk] at h ⊢
          cases e : pExpr f 0 ts with
          | none => simp [e] at h
          | some y =>
            simp only [e] at h
            cases e2 : pMore f y.2 with
            | none => simp [e2] at h
            | some z =>
              simp only [e2] at h; cases h
              rw [Tree.closedAll, Bool.and_eq_true] at hx
              rw [hE _ _ _ e hx.1 (.inr (.inl (more_ne e2)))]
              simp only
              rw [hM _ _ e2 hx.2]
        · simp [hk] at h
    · intro ts x h hx
      cases ts with
      | nil => cases h
      | cons t ts =>
        rw [pMore] at h
        rw [List.cons_append, pMore]
        by_cases hk : t.kind = .rparen
        · simp only [if_pos hk] at h ⊢; cases h; rfl
        · simp only [if_neg hk] at h ⊢
          by_cases hk2 : t.kind = .comma
          · simp only [if_pos hk2] at h ⊢
            cases e : pExpr f 0 ts with
            | none => simp [e] at h
            | some y =>
              simp only [e] at h
              cases e2 : pMore f y.2 with
              | none => simp [e2] at h
              | some z =>
                simp only [e2] at h; cases h
                rw [Tree.closedAll, Bool.and_eq_true] at hx
                rw [hE _ _ _ e hx.1 (.inr (.inl (more_ne e2)))]
                simp only
                rw [hM _ _ e2 hx.2]
          · simp [hk2] at h

/-! ## Where an operand may be missing at the end -/

/-- An operator after which an operand is expected. -/
def Dangling (k : TK) : Prop := k ∈ betweenKinds ∨ k = .kNot

/-- The last token is an operator. -/
def OpenEnd (ts : List Token) : Prop := ∃ pre u, ts = pre ++ [u] ∧ Dangling u.kind

theorem OpenEnd.cons {ts : List Token} (h : OpenEnd ts) (u : Token) : OpenEnd (u :: ts) := by
  obtain ⟨pre, v, rfl, hv⟩ := h
  exact ⟨u :: pre, v, rfl, hv⟩

theorem OpenEnd.append {ts : List Token} (h : OpenEnd ts) (us : List Token) : OpenEnd (us ++ ts) := by
  obtain ⟨pre, v, rfl, hv⟩ := h
  exact ⟨us ++ pre, v, by simp, hv⟩

theorem openEnd_after {u : Token} {ts : List Token} (hu : Dangling u.kind) (h : ts = [] ∨ OpenEnd ts) :
    OpenEnd (u :: ts) := by
  rcases h with rfl | h
  · exact ⟨[], u, rfl, hu⟩
  · exact h.cons u

theorem fieldTail_closed {f : Nat} {t : Token} {ts : List Token} {x : Tree × List Token}
    (ha : ∀ x, pAfterField f t ts = some x → x.1.closed = true) (h : fieldTail f t ts = some x) :
    x.1.closed = true := by
  match ts with
  | [] => rw [fieldTail] at h; cases h; rfl
  | [lo] =>
    simp only [fieldTail] at h
    cases hn : isNumKind lo.kind
    · rw [hn] at h; exact ha x (by simpa using h)
    · rw [hn] at h; cases h
  | [lo, to_] =>
    simp only [fieldTail] at h
    cases hn : isNumKind lo.kind
    · rw [hn] at h; exact ha x (by simpa using h)
    · rw [hn] at h; cases h
  | lo :: to_ :: hi :: ts' =>
    simp only [fieldTail] at h
    cases hn : isNumKind lo.kind
    · rw [hn] at h; exact ha x (by simpa using h)
    · rw [hn, if_pos rfl] at h
      split at h
      · cases h; rfl
      · cases h

theorem parse_open (f : Nat) :
    (∀ p ts x, (∀ u ∈ ts, u.kind ≠ .eof) → pExpr f p ts = some x →
      x.1.closed = true ∨ (x.2 = [] ∧ (ts = [] ∨ OpenEnd ts))) ∧
    (∀ ts x, (∀ u ∈ ts, u.kind ≠ .eof) → pPrimary f ts = some x →
      x.1.closed = true ∨ (x.2 = [] ∧ (ts = [] ∨ OpenEnd ts))) ∧
    (∀ t ts x, (∀ u ∈ ts, u.kind ≠ .eof) → pAfterField f t ts = some x → x.1.closed = true) ∧
    (∀ p l ts x, (∀ u ∈ ts, u.kind ≠ .eof) → pLoop f p l ts = some x → l.closed = true →
      x.1.closed = true ∨ (x.2 = [] ∧ OpenEnd ts)) ∧
    (∀ ts x, (∀ u ∈ ts, u.kind ≠ .eof) → pWordlist f ts = some x → Tree.closedAll x.1 = true) ∧
    (∀ ts x, (∀ u ∈ ts, u.kind ≠ .eof) → pMore f ts = some x → Tree.closedAll x.1 = true) := by
  induction f with
  | zero => refine ⟨?_, ?_, ?_, ?_, ?_, ?_⟩ <;> intros <;> simp_all [pExpr, pPrimary, pAfterField, pLoop, pWordlist, pMore]
  | succ f ih =>
    obtain ⟨hE, hP, hA, hL, hW, hM⟩ := ih
    have suf : ∀ {P : List TK → Prop} {ts r : List Token}, Takes P ts r → (∀ u ∈ ts, u.kind ≠ .eof) →
        ∀ u ∈ r, u.kind ≠ .eof := by
      rintro P ts r ⟨c, rfl, -⟩ h u hu
      exact h u (List.mem_append_right _ hu)
    refine ⟨?_, ?_, ?_, ?_, ?_, ?_⟩
    · intro p ts x hne h
      rw [pExpr] at h
      cases e : pPrimary f ts with
      | none => simp [e] at h
      | some y =>
        simp only [e] at h
        obtain ⟨c, hc, -⟩ := (parse_takes f).2.1 _ _ e
        rcases hP _ _ hne e with h1 | ⟨h1, h2⟩
        · rcases hL _ _ _ _ (suf ((parse_takes f).2.1 _ _ e) hne) h h1 with h3 | ⟨h3, h4⟩
          · exact .inl h3
          · exact .inr ⟨h3, .inr (by rw [hc]; exact h4.append c)⟩
        · rw [h1] at h
          cases f with
          | zero => cases h
          | succ f => rw [pLoop] at h; cases h; exact .inr ⟨rfl, h2⟩
    · intro ts x hne h
      cases ts with
      | nil => rw [pPrimary] at h; cases h; exact .inr ⟨rfl, .inl rfl⟩
      | cons t ts =>
        have hne' : ∀ u ∈ ts, u.kind ≠ .eof := fun u hu => hne u (List.mem_cons_of_mem _ hu)
        by_cases hf : t.kind = .field
        · rw [pPrimary_field _ _ _ hf] at h
          exact .inl (fieldTail_closed (fun x => hA t ts x hne') h)
        rw [pPrimary_cons] at h
        cases hk : t.kind with
        | field => exact absurd hk hf
        | lparen =>
          simp only [hk] at h
          cases e : pExpr f 0 ts with
          | none => simp [e] at h
          | some y =>
            simp only [e] at h
            obtain ⟨e1, rest⟩ := y
            cases rest with
            | nil => cases h
            | cons r ts' =>
              simp only at h
              by_cases hr : r.kind = .rparen
              · rw [if_pos hr] at h; cases h
                rcases hE _ _ _ hne' e with h1 | ⟨h1, -⟩
                · exact .inl h1
                · cases h1
              · rw [if_neg hr] at h; cases h
        | kNot =>
          simp only [hk] at h
          cases e : pExpr f 15 ts with
          | none => simp [e] at h
          | some y =>
            simp only [e] at h; cases h
            rcases hE _ _ _ hne' e with h1 | ⟨h1, h2⟩
            · exact .inl h1
            · exact .inr ⟨h1, .inr (openEnd_after (.inr hk) h2)⟩
        | arith op =>
          cases op with
          | sub =>
            simp only [hk] at h
            cases e : pExpr f 13 ts with
            | none => simp [e] at h
            | some y =>
              simp only [e] at h; cases h
              rcases hE _ _ _ hne' e with h1 | ⟨h1, h2⟩
              · exact .inl h1
              · exact .inr ⟨h1, .inr (openEnd_after (.inl (by rw [hk]; simp [betweenKinds])) h2)⟩
          | _ => simp only [hk] at h; cases h; left; simp [Tree.closed, hk]
        | fn g =>
          simp only [hk] at h
          cases e : pWordlist f ts with
          | none => simp [e] at h
          | some y => simp only [e] at h; cases h; exact .inl (hW _ _ hne' e)
        | eof => exact absurd hk (hne t (by simp))
        | _ => simp only [hk] at h; first | (cases h; done) | (cases h; left; simp [Tree.closed, hk])
    · intro t ts x hne h
      cases ts with
      | nil => rw [pAfterField] at h; cases h; rfl
      | cons v vs =>
        have hne' : ∀ u ∈ vs, u.kind ≠ .eof := fun u hu => hne u (List.mem_cons_of_mem _ hu)
        rw [pAfterField_cons] at h
        cases hk : v.kind with
        | kIn =>
          simp only [hk] at h
          cases e : pWordlist f vs with
          | none => simp [e] at h
          | some y => simp only [e] at h; cases h; exact hW _ _ hne' e
        | kNot =>
          simp only [hk] at h
          cases vs with
          | nil => cases h
          | cons w ws =>
            simp only at h
            by_cases hv : w.kind = .kIn
            · simp only [hv, if_true] at h
              cases e : pWordlist f ws with
              | none => simp [e] at h
              | some y =>
                simp only [e] at h; cases h
                exact hW _ _ (fun u hu => hne' u (List.mem_cons_of_mem _ hu)) e
            · simp [hv] at h
        | cAll =>
          simp only [hk] at h
          cases e : pWordlist f vs with
          | none => simp [e] at h
          | some y => simp only [e] at h; cases h; exact hW _ _ hne' e
        | cAny =>
          simp only [hk] at h
          cases e : pWordlist f vs with
          | none => simp [e] at h
          | some y => simp only [e] at h; cases h; exact hW _ _ hne' e
        | _ => simp only [hk] at h; cases h; rfl
    · intro p l ts x hne h hl
      cases ts with
      | nil => rw [pLoop] at h; cases h; exact .inl hl
      | cons t ts =>
        have hne' : ∀ u ∈ ts, u.kind ≠ .eof := fun u hu => hne u (List.mem_cons_of_mem _ hu)
        rw [pLoop] at h
        cases hb : binTok t.kind with
        | none => simp only [hb] at h; cases h; exact .inl hl
        | some b =>
          simp only [hb] at h
          by_cases hp : p ≤ b.prec
          · simp only [if_pos hp] at h
            cases e : pExpr f (b.prec + 1) ts with
            | none => simp [e] at h
            | some y =>
              simp only [e] at h
              obtain ⟨c, hc, -⟩ := (parse_takes f).1 _ _ _ e
              rcases hE _ _ _ hne' e with h1 | ⟨h1, h2⟩
              · have hm : (b.mk l y.1).closed = true := by rw [closed_mk, hl, h1]; rfl
                rcases hL _ _ _ _ (suf ((parse_takes f).1 _ _ _ e) hne') h hm with h3 | ⟨h3, h4⟩
                · exact .inl h3
                · exact .inr ⟨h3, by rw [hc]; exact (h4.append c).cons t⟩
              · rw [h1] at h
                cases f with
                | zero => cases h
                | succ f =>
                  rw [pLoop] at h; cases h
                  exact .inr ⟨rfl, openEnd_after (.inl (binTok_between hb)) h2⟩
          · simp only [if_neg hp] at h; cases h; exact .inl hl
    · intro ts x hne h
      cases ts with
      | nil => cases h
      | cons t ts =>
        have hne' : ∀ u ∈ ts, u.kind ≠ .eof := fun u hu => hne u (List.mem_cons_of_mem _ hu)
        rw [pWordlist] at h
        by_cases hk : t.kind = .lparen
        · simp only [if_pos hk] at h
          cases e : pExpr f 0 ts with
          | none => simp [e] at h
          | some y =>
            simp only [e] at h
            cases e2 : pMore f y.2 with
            | none => simp [e2] at h
            | some z =>
              simp only [e2] at h; cases h
              have h3 := hM _ _ (suf ((parse_takes f).1 _ _ _ e) hne') e2
              rcases hE _ _ _ hne' e with h1 | ⟨h1, h2⟩
              · rw [Tree.closedAll, h1, h3]; rfl
              · rw [h1] at e2; cases f <;> cases e2
        · simp [hk] at h
    · intro ts x hne h
      cases ts with
      | nil => cases h
      | cons t ts =>
        have hne' : ∀ u ∈ ts, u.kind ≠ .eof := fun u hu => hne u (List.mem_cons_of_mem _ hu)
        rw [pMore] at h
        by_cases hk : t.kind = .rparen
        · simp only [if_pos hk] at h; cases h; rfl
        · simp only [if_neg hk] at h
          by_cases hk2 : t.kind = .comma
          · simp only [if_pos hk2] at h
            cases e : pExpr f 0 ts with
            | none => simp [e] at h
            | some y =>
              simp only [e] at h
              cases e2 : pMore f y.2 with
              | none => simp [e2] at h
              | some z =>
                simp only [e2] at h; cases h
                have h3 := hM _ _ (suf ((parse_takes f).1 _ _ _ e) hne') e2
                rcases hE _ _ _ hne' e with h1 | ⟨h1, h2⟩
                · rw [Tree.closedAll, h1, h3]; rfl
                · rw [h1] at e2; cases f <;> cases e2
          · simp [hk2] at h

theorem parse_closed {ts : List Token} {t : Tree} (h : parseTokens ts = some t) (hne : ∀ u ∈ ts, u.kind ≠ .eof)
    (h0 : ts ≠ []) (ho : ¬ OpenEnd ts) : t.closed = true := by
  obtain ⟨f, hf⟩ := parseTokens_iff.1 h
  rcases (parse_open f).1 _ _ _ hne hf with h1 | ⟨-, h2⟩
  · exact h1
  · exact absurd h2 (by rintro (h | h); exacts [h0 h, ho h])

/-- Parentheses around a whole expression. -/
theorem primary_paren {ts : List Token} {t : Tree} (h : parseTokens ts = some t) (hc : t.closed = true)
    {u v : Token} (hu : u.kind = .lparen) (hv : v.kind = .rparen) :
    ∃ f, pPrimary (f + 1) (u :: (ts ++ [v])) = some (.paren t, []) := by
  obtain ⟨f, hf⟩ := parseTokens_iff.1 h
  have h1 := (parse_local (u := v) (by rw [hv]; rfl) [] f).1 _ _ _ hf hc (.inl (by rw [hv]; rfl))
  refine ⟨f + 1, ?_⟩
  rw [pPrimary_cons, hu]
  simp only
  rw [h1]
  simp only [List.nil_append, if_pos hv]

theorem parse_paren {ts : List Token} {t : Tree} (h : parseTokens ts = some t) (hc : t.closed = true)
    {u v : Token} (hu : u.kind = .lparen) (hv : v.kind = .rparen) :
    parseTokens (u :: (ts ++ [v])) = some (.paren t) := by
  obtain ⟨f, hf⟩ := primary_paren h hc hu hv
  refine parseTokens_of (f := f + 1 + 1) ?_
  rw [pExpr, hf]; rfl

/-- `NOT` before parentheses around a whole expression. -/
theorem parse_not_paren {ts : List Token} {t : Tree} (h : parseTokens ts = some t) (hc : t.closed = true)
    {n u v : Token} (hn : n.kind = .kNot) (hu : u.kind = .lparen) (hv : v.kind = .rparen) :
    parseTokens (n :: u :: (ts ++ [v])) = some (.not_ (.paren t)) := by
  obtain ⟨f, hf⟩ := primary_paren h hc hu hv
  have h15 : pExpr (f + 1 + 1) 15 (u :: (ts ++ [v])) = some (.paren t, []) := by rw [pExpr, hf]; rfl
  refine parseTokens_of (f := f + 1 + 1 + 1 + 1) ?_
  rw [pExpr, pPrimary_cons, hn]
  simp only
  rw [h15]
  rfl

/-! ## The stack is empty only after a lone operand -/

/-- A literal, a field or nothing, in any number of parentheses. -/
def Tree.isLone : Tree → Bool
  | .types _ _ => true
  | .paren t => t.isLone
  | _ => false

theorem exitMapped_stack {df : Option JStr} {t : Tree} {s s' : LState} (h : exitMapped df t s = .ok s') :
    s'.stack ≠ [] := by
  unfold exitMapped at h
  cases e : mapNode df t s.stack with
  | error x => rw [e] at h; cases h
  | ok y => rw [e] at h; cases h; simp

theorem exitNeg_stack {df : Option JStr} {t : Tree} {s s' : LState} (h : exitNeg df t s = .ok s') :
    s'.stack ≠ [] := by
  have leaf : ∀ {s'}, (match t with
    | .types t em => do
      let n ← mapTypes df t em
      pure { s with stack := .neg n :: s.stack }
    | _ => (.error .classCast : Result LState)) = .ok s' → s'.stack ≠ [] := by
    intro s' h
    cases t with
    | types u em =>
      simp only at h
      cases e : mapTypes df u em with
      | error x => rw [e] at h; cases h
      | ok y => rw [e] at h; cases h; simp
    | _ => cases h
  unfold exitNeg at h
  simp only at h
  split at h
  · split at h
    · cases h; simp
    · exact leaf h
  · exact leaf h

theorem exitNot_stack {s s' : LState} (h : exitNot s = .ok s') : s'.stack ≠ [] := by
  unfold exitNot at h
  split at h
  · cases h; simp
  · split at h
    · cases h
    · rename_i u _
      cases e : convertValue u.text (tokType u) with
      | error x => rw [e] at h; cases h
      | ok y => rw [e] at h; cases h; simp

theorem exitBin_stack {c : Bool} {s s' : LState} (h : exitBin c s = .ok s') : s'.stack ≠ [] := by
  unfold exitBin at h
  split at h
  · cases h; simp
  · cases h

theorem exitArray_stack {df : Option JStr} {f : Token} {op : ArrOp} {items : List Tree} {s s' : LState}
    (h : exitArray df f op items s = .ok s') : s'.stack ≠ [] := by
  unfold exitArray at h
  cases e : mapNodes df items s.stack with
  | error x => rw [e] at h; cases h
  | ok y => rw [e] at h; cases h; simp

theorem bind_ok_inv {α β : Type} {x : Result α} {f : α → Result β} {b : β} (h : (x >>= f) = .ok b) :
    ∃ a, x = .ok a ∧ f a = .ok b := by
  cases x with
  | error e => cases h
  | ok a => exact ⟨a, rfl, h⟩

theorem walk_stack {df : Option JStr} {s s' : LState} : {t : Tree} → t.isLone = false → walk df t s = .ok s' →
    s'.stack ≠ []
  | .paren t, hl, h => walk_stack (t := t) hl h
  | .types _ _, hl, _ => by cases hl
  | .not_ _, _, h => by
    rw [walk] at h
    obtain ⟨s1, _, h⟩ := bind_ok_inv h
    exact exitNot_stack h
  | .cmp _ _ _, _, h => by
    rw [walk] at h
    obtain ⟨s1, _, h⟩ := bind_ok_inv h
    obtain ⟨s2, _, h⟩ := bind_ok_inv h
    exact exitMapped_stack h
  | .neg _, _, h => by
    rw [walk] at h
    obtain ⟨s1, _, h⟩ := bind_ok_inv h
    exact exitNeg_stack h
  | .arith _ _ _, _, h => by
    rw [walk] at h
    obtain ⟨s1, _, h⟩ := bind_ok_inv h
    obtain ⟨s2, _, h⟩ := bind_ok_inv h
    exact exitMapped_stack h
  | .func _ _, _, h => by
    rw [walk] at h
    obtain ⟨s1, _, h⟩ := bind_ok_inv h
    exact exitMapped_stack h
  | .bin _ _ _, _, h => by
    rw [walk] at h
    obtain ⟨s1, _, h⟩ := bind_ok_inv h
    obtain ⟨s2, _, h⟩ := bind_ok_inv h
    exact exitBin_stack h
  | .to_ _ _ _, _, h => exitMapped_stack h
  | .in_ _ _ _, _, h => by
    rw [walk] at h
    obtain ⟨s1, _, h⟩ := bind_ok_inv h
    exact exitMapped_stack h
  | .array _ _ _, _, h => by
    rw [walk] at h
    obtain ⟨s1, _, h⟩ := bind_ok_inv h
    exact exitArray_stack h

theorem listen_paren (df : Option JStr) (t : Tree) : listen df (.paren t) = listen df t := rfl

theorem listen_not {df : Option JStr} {t : Tree} (h : t.isLone = false) :
    listen df (.not_ t) = (do let n ← listen df t; pure (.not_ n)) := by
  show (do let s ← (do let s ← walk df t LState.init; exitNot s); exitParse s) = _
  rw [listen]
  cases e : walk df t LState.init with
  | error x => rfl
  | ok s =>
    have hs := walk_stack h e
    obtain ⟨st, l, c⟩ := s
    cases st with
    | nil => exact absurd rfl hs
    | cons n st => rfl

/-- Kinds of tokens that make a lone operand. -/
def LoneKind (k : TK) : Prop := k ∈ typesKinds ∨ k = .lparen ∨ k = .rparen

theorem mk_lone (b : BinTok) (l r : Tree) : (b.mk l r).isLone = false := by cases b <;> rfl

theorem pLoop_lone {f p : Nat} {l : Tree} {ts : List Token} {x : Tree × List Token} (h : pLoop f p l ts = some x)
    (hx : x.1.isLone = true) : x = (l, ts) ∧ l.isLone = true := by
  have keep : ∀ f {l : Tree} {ts}, pLoop f p l ts = some x → l.isLone = true := by
    intro f
    induction f with
    | zero => intro l ts h; cases h
    | succ f ih =>
      intro l ts h
      cases ts with
      | nil => rw [pLoop] at h; cases h; exact hx
      | cons t ts =>
        rw [pLoop] at h
        split at h
        · split at h
          · split at h
            · exact absurd (ih h) (by rw [mk_lone]; simp)
            · cases h
          · cases h; exact hx
        · cases h; exact hx
  refine ⟨?_, keep f h⟩
  cases f with
  | zero => cases h
  | succ f =>
    cases ts with
    | nil => rw [pLoop] at h; cases h; rfl
    | cons t ts =>
      rw [pLoop] at h
      split at h
      · split at h
        · split at h
          · exact absurd (keep f h) (by rw [mk_lone]; simp)
          · cases h
        · cases h; rfl
      · cases h; rfl

/-- All kinds are those of a lone operand. -/
def AllLone (ks : List TK) : Prop := ∀ k ∈ ks, LoneKind k

theorem fieldTail_lone {f : Nat} {t : Token} {ts : List Token} {x : Tree × List Token}
    (h : fieldTail f t ts = some x) (hx : x.1.isLone = true) : x.2 = ts := by
  have after : ∀ us, pAfterField f t us = some x → x.2 = us := by
    intro us h
    cases f with
    | zero => cases h
    | succ f =>
      cases us with
      | nil => rw [pAfterField] at h; cases h; rfl
      | cons v vs =>
        rw [pAfterField_cons] at h
        cases hk : v.kind with
        | kIn =>
          simp only [hk] at h
          cases e : pWordlist f vs with
          | none => simp [e] at h
          | some y => simp only [e] at h; cases h; cases hx
        | kNot =>
          simp only [hk] at h
          cases vs with
          | nil => cases h
          | cons w ws =>
            simp only at h
            by_cases hv : w.kind = .kIn
            · simp only [hv, if_true] at h
              cases e : pWordlist f ws with
              | none => simp [e] at h
              | some y => simp only [e] at h; cases h; cases hx
            · simp [hv] at h
        | cAll =>
          simp only [hk] at h
          cases e : pWordlist f vs with
          | none => simp [e] at h
          | some y => simp only [e] at h; cases h; cases hx
        | cAny =>
          simp only [hk] at h
          cases e : pWordlist f vs with
          | none => simp [e] at h
          | some y => simp only [e] at h; cases h; cases hx
        | _ => simp only [hk] at h; cases h; rfl
  match ts with
  | [] => rw [fieldTail] at h; cases h; rfl
  | [lo] =>
    simp only [fieldTail] at h
    cases hn : isNumKind lo.kind
    · rw [hn] at h; exact after _ (by simpa using h)
    · rw [hn] at h; cases h
  | [lo, to_] =>
    simp only [fieldTail] at h
    cases hn : isNumKind lo.kind
    · rw [hn] at h; exact after _ (by simpa using h)
    · rw [hn] at h; cases h
  | lo :: to_ :: hi :: ts' =>
    simp only [fieldTail] at h
    cases hn : isNumKind lo.kind
    · rw [hn] at h; exact after _ (by simpa using h)
    · rw [hn, if_pos rfl] at h
      split at h
      · cases h; cases hx
      · cases h

theorem expr_lone (f : Nat) : ∀ p ts x, pExpr f p ts = some x → x.1.isLone = true → Takes AllLone ts x.2 := by
  induction f using Nat.strong_induction_on with
  | _ f ih =>
  intro p ts x h hx
  cases f with
  | zero => cases h
  | succ f =>
  rw [pExpr] at h
  cases e : pPrimary f ts with
  | none => simp [e] at h
  | some y =>
  simp only [e] at h
  obtain ⟨h1, h2⟩ := pLoop_lone h hx
  subst h1
  cases f with
  | zero => cases e
  | succ f =>
  cases ts with
  | nil => rw [pPrimary] at e; cases e; exact ⟨[], rfl, by simp [AllLone]⟩
  | cons t ts =>
    by_cases hf : t.kind = .field
    · rw [pPrimary_field _ _ _ hf] at e
      exact ⟨[t], by rw [fieldTail_lone e h2]; rfl, by simp [AllLone, hf, LoneKind, typesKinds]⟩
    rw [pPrimary_cons] at e
    cases hk : t.kind with
    | field => exact absurd hk hf
    | lparen =>
      simp only [hk] at e
      cases e' : pExpr f 0 ts with
      | none => simp [e'] at e
      | some z =>
        simp only [e'] at e
        obtain ⟨e1, rest⟩ := z
        cases rest with
        | nil => cases e
        | cons r ts' =>
          simp only at e
          by_cases hr : r.kind = .rparen
          · rw [if_pos hr] at e; cases e
            obtain ⟨c, hc, h3⟩ := ih f (by omega) _ _ _ e' h2
            refine ⟨t :: (c ++ [r]), by rw [hc]; simp, ?_⟩
            intro k hk'
            simp only [List.map, List.map_append, List.mem_cons, List.mem_append, List.not_mem_nil, or_false, hk, hr] at hk'
            rcases hk' with rfl | hk' | rfl
            · exact .inr (.inl rfl)
            · exact h3 k hk'
            · exact .inr (.inr rfl)
          · rw [if_neg hr] at e; cases e
    | kNot =>
      simp only [hk] at e
      cases e' : pExpr f 15 ts with
      | none => simp [e'] at e
      | some z => simp only [e'] at e; cases e; cases h2
    | arith op =>
      cases op with
      | sub =>
        simp only [hk] at e
        cases e' : pExpr f 13 ts with
        | none => simp [e'] at e
        | some z => simp only [e'] at e; cases e; cases h2
      | _ => simp only [hk] at e; cases e; exact ⟨[], rfl, by simp [AllLone]⟩
    | fn g =>
      simp only [hk] at e
      cases e' : pWordlist f ts with
      | none => simp [e'] at e
      | some z => simp only [e'] at e; cases e; cases h2
    | _ =>
      simp only [hk] at e
      first
      | (cases e; done)
      | cases e
      first
      | done
      | exact ⟨[], rfl, by simp [AllLone]⟩
      | exact ⟨[t], rfl, by simp [AllLone, hk, LoneKind, typesKinds]⟩

theorem parse_lone {ts : List Token} {t : Tree} (h : parseTokens ts = some t) (ht : t.isLone = true) :
    ∀ u ∈ ts, LoneKind u.kind := by
  obtain ⟨f, hf⟩ := parseTokens_iff.1 h
  obtain ⟨c, hc, h1⟩ := expr_lone f _ _ _ hf ht
  rw [List.append_nil] at hc
  subst hc
  exact fun u hu => h1 _ (List.mem_map_of_mem hu)

end BoolParser
