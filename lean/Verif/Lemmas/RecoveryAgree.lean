import Verif.Lemmas.Recovery
/-!
# The parser with error recovery on texts of the grammar
-/

namespace BoolParser

mutual
/-- A tree of the grammar among the repaired trees. -/
def Tree.up : Tree → RTree
  | .paren t => .paren t.up
  | .not_ t => .not_ t.up
  | .cmp op l r => .cmp op l.up r.up
  | .neg t => .neg t.up
  | .arith op l r => .arith op l.up r.up
  | .func f items => .func f .complete (Tree.upAll items)
  | .bin c l r => .bin c l.up r.up
  | .types t e => .types t e
  | .to_ f lo hi => .to_ f lo (some (hi, hi.text))
  | .in_ f ng items => .in_ f ng .complete (Tree.upAll items)
  | .array f op items => .array f op .complete (Tree.upAll items)
def Tree.upAll : List Tree → List RTree
  | [] => []
  | t :: ts => t.up :: Tree.upAll ts
end

/-- A name or nothing, possibly after `NOT`s and minus signs. -/
def Tree.bare : Tree → Bool
  | .types t e => e || t.kind == .field
  | .not_ t => t.bare
  | .neg t => t.bare
  | _ => false

/-- No minus sign stands before a name (or nothing) at the end of the text. -/
def Tree.calm : Tree → Bool
  | .neg t => !t.bare && t.calm
  | .not_ t => t.calm
  | .cmp _ _ r => r.calm
  | .arith _ _ r => r.calm
  | .bin _ _ r => r.calm
  | _ => true

theorem up_mk (b : BinTok) (l r : Tree) : (b.mk l r).up = b.mkR l.up r.up := by cases b <;> rfl

theorem calm_mk (b : BinTok) (l r : Tree) : (b.mk l r).calm = r.calm := by cases b <;> rfl

theorem bare_mk (b : BinTok) (l r : Tree) : (b.mk l r).bare = false := by cases b <;> rfl

/-! ## Reading ahead of a minus sign -/

/-- The next token ends an operand inside parentheses. -/
def EndsHere (r : List Token) : Prop :=
  ∃ u r', r = u :: r' ∧ (isBinKind u.kind = true ∨ u.kind = .rparen ∨ u.kind = .comma)

theorem minus_cons (ctx : List Frame) (a : Ahead) (o : List Frame) (t : Token) (ts : List Token) :
    minusAhead ctx a o (t :: ts) = match aheadStep ctx a o t.kind with
      | .agree => true
      | .stuck => false
      | .more a' o' => minusAhead ctx a' o' ts := rfl

/-- After an operand within the parentheses `o`. -/
def minusDone (ctx o : List Frame) (r : List Token) : Bool := if o.isEmpty then true else minusAhead ctx .done o r

theorem minusDone_cons (ctx : List Frame) (fr : Frame) (o : List Frame) (r : List Token) :
    minusDone ctx (fr :: o) r = minusAhead ctx .done (fr :: o) r := rfl

theorem minus_done {ctx : List Frame} {a : Ahead} {o : List Frame} {t : Token} {ts : List Token}
    (h : aheadStep ctx a o t.kind = aheadDone o) : minusAhead ctx a o (t :: ts) = minusDone ctx o ts := by
  rw [minus_cons, h]
  cases o <;> rfl

theorem ends_step {ctx : List Frame} {fr : Frame} {o : List Frame} {k : TK} {a : Ahead} (ha : a = .operand ∨ a = .name)
    (h : isBinKind k = true ∨ k = .rparen ∨ k = .comma) :
    aheadStep ctx a (fr :: o) k = aheadAfter ctx (fr :: o) k := by
  rcases h with h | rfl | rfl
  · cases k with
    | arith op => cases op <;> rcases ha with rfl | rfl <;> rfl
    | cmp op => rcases ha with rfl | rfl <;> rfl
    | kAnd => rcases ha with rfl | rfl <;> rfl
    | kOr => rcases ha with rfl | rfl <;> rfl
    | _ => cases h
  · rcases ha with rfl | rfl <;> rfl
  · rcases ha with rfl | rfl <;> rfl

theorem ends_minus {ctx : List Frame} {fr : Frame} {o : List Frame} {r : List Token} {a : Ahead}
    (ha : a = .operand ∨ a = .name) (h : EndsHere r) :
    minusAhead ctx a (fr :: o) r = minusAhead ctx .done (fr :: o) r := by
  obtain ⟨u, r', rfl, h⟩ := h
  rw [minus_cons, minus_cons, ends_step ha h]; rfl

theorem loop_ends {f p : Nat} {l : Tree} {ts : List Token} {x : Tree × List Token} (h : pLoop f p l ts = some x)
    (hx : EndsHere x.2) : EndsHere ts := by
  cases f with
  | zero => cases h
  | succ f =>
    cases ts with
    | nil => rw [pLoop] at h; cases h; exact hx
    | cons t ts =>
      rw [pLoop] at h
      cases hb : binTok t.kind with
      | none => rw [hb] at h; cases h; exact hx
      | some b => exact ⟨t, ts, rfl, .inl (by rw [isBinKind, hb]; rfl)⟩

theorem more_ends {f : Nat} {ts : List Token} {x : List Tree × List Token} (h : pMore f ts = some x) : EndsHere ts := by
  cases f with
  | zero => cases h
  | succ f =>
    cases ts with
    | nil => cases h
    | cons t ts =>
      rw [pMore] at h
      split at h
      · exact ⟨t, ts, rfl, .inr (.inl ‹_›)⟩
      · split at h
        · exact ⟨t, ts, rfl, .inr (.inr ‹_›)⟩
        · cases h

theorem minus_empty {ctx : List Frame} {fr : Frame} {o : List Frame} {r : List Token} (h : EndsHere r) :
    minusAhead ctx .operand (fr :: o) r = minusAhead ctx .done (fr :: o) r := ends_minus (.inl rfl) h

theorem lit_step {ctx o : List Frame} {k : TK} (h : isLitKind k = true) : aheadStep ctx .operand o k = aheadDone o := by
  cases k <;> first | rfl | cases h

theorem minus_range {ctx o : List Frame} {lo to_ hi : Token} {ts : List Token} (h1 : isNumKind lo.kind = true)
    (h2 : to_.kind = .kTo) (h3 : isNumKind hi.kind = true) :
    minusAhead ctx .name o (lo :: to_ :: hi :: ts) = minusDone ctx o ts := by
  rw [minus_cons]
  have e : aheadStep ctx .name o lo.kind = .more .range o := by
    cases hk : lo.kind <;> rw [hk] at h1 <;> first | rfl | cases h1
  rw [e]
  simp only
  rw [minus_cons]
  have e2 : aheadStep ctx .range o to_.kind = .more .upper o := by rw [h2]; rfl
  rw [e2]
  exact minus_done (by simp only [aheadStep, h3]; rfl)

/-- A FIELD token and what belongs to it. -/
theorem minus_tail {ctx o : List Frame} {f : Nat} {t : Token} {ts : List Token} {x : Tree × List Token}
    (hA : ∀ x, pAfterField f t ts = some x → minusAhead ctx .name o ts = minusDone ctx o x.2 ∨ x = (.types t false, ts))
    (h : fieldTail f t ts = some x) :
    minusAhead ctx .name o ts = minusDone ctx o x.2 ∨ x = (.types t false, ts) := by
  match ts with
  | [] => rw [fieldTail] at h; cases h; exact .inr rfl
  | [lo] =>
    simp only [fieldTail] at h
    split at h
    · cases h
    · exact hA _ h
  | [lo, to_] =>
    simp only [fieldTail] at h
    split at h
    · cases h
    · exact hA _ h
  | lo :: to_ :: hi :: ts' =>
    simp only [fieldTail] at h
    split at h
    · split at h
      · rename_i h1 h2
        cases h
        exact .inl (minus_range h1 h2.1 h2.2)
      · cases h
    · exact hA _ h

theorem minus_after {ctx o : List Frame} {f : Nat} {t : Token}
    (hW : ∀ ts x, pWordlist f ts = some x → minusAhead ctx .list o ts = minusDone ctx o x.2)
    {ts : List Token} {x : Tree × List Token} (h : pAfterField (f + 1) t ts = some x) :
    minusAhead ctx .name o ts = minusDone ctx o x.2 ∨ x = (.types t false, ts) := by
  cases ts with
  | nil => cases h; exact .inr rfl
  | cons u us =>
    rw [pAfterField_cons] at h
    cases hk : u.kind with
    | kIn =>
      rw [hk] at h
      cases e : pWordlist f us with
      | none => rw [e] at h; cases h
      | some y =>
        rw [e] at h; cases h
        exact .inl (by rw [minus_cons, hk]; exact hW _ _ e)
    | cAll =>
      rw [hk] at h
      cases e : pWordlist f us with
      | none => rw [e] at h; cases h
      | some y =>
        rw [e] at h; cases h
        exact .inl (by rw [minus_cons, hk]; exact hW _ _ e)
    | cAny =>
      rw [hk] at h
      cases e : pWordlist f us with
      | none => rw [e] at h; cases h
      | some y =>
        rw [e] at h; cases h
        exact .inl (by rw [minus_cons, hk]; exact hW _ _ e)
    | kNot =>
      rw [hk] at h
      cases us with
      | nil => cases h
      | cons v vs =>
        simp only at h
        split at h
        · rename_i hv
          cases e : pWordlist f vs with
          | none => rw [e] at h; cases h
          | some y =>
            rw [e] at h; cases h
            refine .inl ?_
            rw [minus_cons, hk]
            simp only [aheadStep]
            rw [minus_cons, hv]
            exact hW _ _ e
        · cases h
    | _ => rw [hk] at h; cases h; exact .inr rfl

/-- Inside parentheses the look-ahead passes over every operand. -/
theorem minus_inside (ctx : List Frame) (f : Nat) :
    (∀ p fr o ts x, pExpr f p ts = some x → EndsHere x.2 →
      minusAhead ctx .operand (fr :: o) ts = minusAhead ctx .done (fr :: o) x.2) ∧
    (∀ fr o ts x, pPrimary f ts = some x → EndsHere x.2 →
      minusAhead ctx .operand (fr :: o) ts = minusAhead ctx .done (fr :: o) x.2) ∧
    (∀ p fr o l ts x, pLoop f p l ts = some x → EndsHere x.2 →
      minusAhead ctx .done (fr :: o) ts = minusAhead ctx .done (fr :: o) x.2) ∧
    (∀ o ts x, pWordlist f ts = some x → minusAhead ctx .list o ts = minusDone ctx o x.2) ∧
    (∀ o ts x, pMore f ts = some x → minusAhead ctx .done (.items :: o) ts = minusDone ctx o x.2) := by
  induction f with
  | zero => refine ⟨?_, ?_, ?_, ?_, ?_⟩ <;> intros <;> simp_all [pExpr, pPrimary, pLoop, pWordlist, pMore]
  | succ f ih =>
    obtain ⟨hE, hP, hL, hW, hM⟩ := ih
    have hA : ∀ o t ts x, pAfterField f t ts = some x →
        minusAhead ctx .name o ts = minusDone ctx o x.2 ∨ x = (.types t false, ts) := by
      intro o t ts x h
      cases f with
      | zero => cases h
      | succ g => exact minus_after (fun ts x h => hW o ts x (pWordlist_mono (Nat.le_succ g) h)) h
    refine ⟨?_, ?_, ?_, ?_, ?_⟩
    · intro p fr o ts x h hx
      rw [pExpr] at h
      cases e : pPrimary f ts with
      | none => rw [e] at h; cases h
      | some y =>
        rw [e] at h
        rw [hP fr o ts y e (loop_ends h hx)]
        exact hL p fr o _ _ _ h hx
    · intro fr o ts x h hx
      cases ts with
      | nil => cases h; obtain ⟨u, r', hr, _⟩ := hx; cases hr
      | cons t ts =>
        by_cases hf : t.kind = .field
        · rw [pPrimary_field _ _ _ hf] at h
          rw [minus_cons, hf]
          simp only [aheadStep]
          rcases minus_tail (ctx := ctx) (o := fr :: o) (hA _ t ts) h with h1 | rfl
          · exact h1
          · exact ends_minus (.inr rfl) hx
        · rw [pPrimary_cons] at h
          cases hk : t.kind with
          | lparen =>
            rw [hk] at h
            simp only at h
            rw [minus_cons, hk]
            simp only [aheadStep]
            cases e : pExpr f 0 ts with
            | none => rw [e] at h; cases h
            | some y =>
              obtain ⟨t', r⟩ := y
              rw [e] at h
              cases r with
              | nil => cases h
              | cons r ts' =>
                simp only at h
                split at h
                · rename_i hr
                  cases h
                  rw [hE 0 .rparen (fr :: o) ts _ e ⟨r, ts', rfl, .inr (.inl hr)⟩]
                  rw [minus_cons, hr]
                  rfl
                · cases h
          | kNot =>
            rw [hk] at h
            simp only at h
            rw [minus_cons, hk]
            cases e : pExpr f 15 ts with
            | none => rw [e] at h; cases h
            | some y => rw [e] at h; cases h; exact hE 15 fr o ts y e hx
          | arith op =>
            rw [hk] at h
            cases op with
            | sub =>
              simp only at h
              rw [minus_cons, hk]
              cases e : pExpr f 13 ts with
              | none => rw [e] at h; cases h
              | some y => rw [e] at h; cases h; exact hE 13 fr o ts y e hx
            | _ => cases h; exact minus_empty hx
          | fn g =>
            rw [hk] at h
            simp only at h
            rw [minus_cons, hk]
            cases e : pWordlist f ts with
            | none => rw [e] at h; cases h
            | some y => rw [e] at h; cases h; exact hW (fr :: o) ts y e
          | field => exact absurd hk hf
          | _ =>
            rw [hk] at h
            first
              | (cases h; done)
              | (cases h; exact minus_empty hx)
              | (cases h; exact minus_done (by rw [hk]; rfl))
    · intro p fr o l ts x h hx
      cases ts with
      | nil => rw [pLoop] at h; cases h; rfl
      | cons t ts =>
        rw [pLoop] at h
        cases hb : binTok t.kind with
        | none => rw [hb] at h; cases h; rfl
        | some b =>
          rw [hb] at h
          simp only at h
          split at h
          · cases e : pExpr f (b.prec + 1) ts with
            | none => rw [e] at h; cases h
            | some y =>
              rw [e] at h
              have hb' : isBinKind t.kind = true := by rw [isBinKind, hb]; rfl
              rw [minus_cons]
              simp only [aheadStep, aheadAfter, hb', if_true]
              rw [hE _ fr o ts y e (loop_ends h hx)]
              exact hL p fr o _ _ _ h hx
          · cases h; rfl
    · intro o ts x h
      cases ts with
      | nil => cases h
      | cons t ts =>
        rw [pWordlist] at h
        split at h
        · rename_i ht
          cases e : pExpr f 0 ts with
          | none => rw [e] at h; cases h
          | some y =>
            rw [e] at h
            simp only at h
            cases e2 : pMore f y.2 with
            | none => rw [e2] at h; cases h
            | some z =>
              rw [e2] at h; cases h
              rw [minus_cons, ht]
              simp only [aheadStep, if_true]
              rw [hE 0 .items o ts y e (more_ends e2)]
              exact hM o _ z e2
        · cases h
    · intro o ts x h
      cases ts with
      | nil => cases h
      | cons t ts =>
        rw [pMore] at h
        split at h
        · rename_i ht
          cases h
          rw [minus_cons, ht]
          cases o <;> rfl
        · split at h
          · rename_i ht
            cases e : pExpr f 0 ts with
            | none => rw [e] at h; cases h
            | some y =>
              rw [e] at h
              simp only at h
              cases e2 : pMore f y.2 with
              | none => rw [e2] at h; cases h
              | some z =>
                rw [e2] at h; cases h
                rw [minus_cons, ht]
                have e3 : aheadStep ctx .done (.items :: o) .comma = .more .operand (.items :: o) := rfl
                rw [e3]
                simp only
                rw [hE 0 .items o ts y e (more_ends e2)]
                exact hM o _ z e2
          · cases h

/-- What comes next, as the parser sees it. -/
abbrev nextKind (r : List Token) : TK := (RState.init r).la

theorem minus_stop {ctx : List Frame} {r : List Token} {a : Ahead} (ha : a = .operand ∨ a = .name)
    (h : lookAfter (.ops :: ctx) (nextKind r) = true) (hk : ∀ u r', r = u :: r' → plainKind u.kind = true ∧
      u.kind ≠ .lparen ∧ (∀ g, u.kind ≠ .fn g) ∧ u.kind ≠ .field ∧ isLitKind u.kind = false ∧ u.kind ≠ .arith .sub) :
    minusAhead ctx a [] r = true := by
  cases r with
  | nil =>
    have h' : lookAfter ctx .eof = true := by simpa [lookAfter, nextKind, RState.init, RState.la, RState.head, isBinKind, eofTok, binTok] using h
    rcases ha with rfl | rfl <;> simp [minusAhead, h']
  | cons u r =>
    obtain ⟨h1, h2, h3, h4, h5, h6⟩ := hk u r rfl
    have h' : (isBinKind u.kind || lookAfter ctx u.kind) = true := h
    rw [minus_cons]
    have e : aheadStep ctx a [] u.kind = .agree := by
      have e2 : aheadAfter ctx [] u.kind = .agree := by simp only [aheadAfter, h', if_true]
      rw [← e2]
      cases hk : u.kind with
      | arith op =>
        cases op with
        | sub => exact absurd hk h6
        | _ => rcases ha with rfl | rfl <;> rfl
      | fn g => exact absurd hk (h3 g)
      | _ =>
        rw [hk] at h1 h2 h4 h5
        first
          | (rcases ha with rfl | rfl <;> rfl; done)
          | (cases h1; done)
          | (exact absurd rfl h2)
          | (exact absurd rfl h4)
          | (cases h5; done)
    rw [e]

theorem minus_name {ctx : List Frame} {r : List Token} (h : lookAfter (.ops :: ctx) (nextKind r) = true)
    (hk : ∀ u r', r = u :: r' → plainKind u.kind = true) : minusAhead ctx .name [] r = true := by
  cases r with
  | nil =>
    have h' : lookAfter ctx .eof = true := by simpa [lookAfter, nextKind, RState.init, RState.la, RState.head, isBinKind, eofTok, binTok] using h
    simp [minusAhead, h']
  | cons u r =>
    have h1 := hk u r rfl
    have h' : (isBinKind u.kind || lookAfter ctx u.kind) = true := h
    rw [minus_cons]
    have e : aheadStep ctx .name [] u.kind = .agree := by
      have e2 : aheadAfter ctx [] u.kind = .agree := by simp only [aheadAfter, h', if_true]
      rw [← e2]
      cases hk : u.kind <;> rw [hk] at h1 <;> first | rfl | cases h1
    rw [e]

theorem after_plain {f : Nat} {t : Token} {ts : List Token} (h : fieldTail f t ts = some (.types t false, ts)) :
    ∀ u r', ts = u :: r' → plainKind u.kind = true := by
  rintro u r' rfl
  have key : pAfterField f t (u :: r') = some (.types t false, u :: r') → isNumKind u.kind = false → plainKind u.kind = true := by
    intro h hn
    cases f with
    | zero => cases h
    | succ f =>
      rw [pAfterField_cons] at h
      cases hk : u.kind with
      | kIn =>
        rw [hk] at h
        cases e : pWordlist f r' <;> rw [e] at h <;> cases h
      | cAll =>
        rw [hk] at h
        cases e : pWordlist f r' <;> rw [e] at h <;> cases h
      | cAny =>
        rw [hk] at h
        cases e : pWordlist f r' <;> rw [e] at h <;> cases h
      | kNot =>
        rw [hk] at h
        cases r' with
        | nil => cases h
        | cons v vs =>
          simp only at h
          split at h
          · cases e : pWordlist f vs <;> rw [e] at h <;> cases h
          · cases h
      | _ => rw [hk] at hn; first | rfl | cases hn
  match r' with
  | [] =>
    simp only [fieldTail] at h
    split at h
    · cases h
    · exact key h (Bool.eq_false_iff.mpr ‹_›)
  | [to_] =>
    simp only [fieldTail] at h
    split at h
    · cases h
    · exact key h (Bool.eq_false_iff.mpr ‹_›)
  | to_ :: hi :: r' =>
    simp only [fieldTail] at h
    split at h
    · split at h <;> cases h
    · exact key h (Bool.eq_false_iff.mpr ‹_›)

/-- The operator loop leaves an operand alone unless an operator follows. -/
theorem loop_cases {f p : Nat} {l : Tree} {ts : List Token} {x : Tree × List Token} (h : pLoop f p l ts = some x) :
    x = (l, ts) ∨ (x.1.bare = false ∧ ∀ ctx, lookAfter (.ops :: ctx) (nextKind ts) = true) := by
  induction f generalizing l ts with
  | zero => cases h
  | succ f ih =>
    cases ts with
    | nil => rw [pLoop] at h; cases h; exact .inl rfl
    | cons t ts =>
      rw [pLoop] at h
      cases hb : binTok t.kind with
      | none => rw [hb] at h; cases h; exact .inl rfl
      | some b =>
        have hl : ∀ ctx, lookAfter (.ops :: ctx) (nextKind (t :: ts)) = true := by
          intro ctx
          show (isBinKind t.kind || lookAfter ctx t.kind) = true
          rw [isBinKind, hb]; rfl
        rw [hb] at h
        simp only at h
        split at h
        · cases e : pExpr f (b.prec + 1) ts with
          | none => rw [e] at h; cases h
          | some y =>
            rw [e] at h
            rcases ih h with rfl | h1
            · exact .inr ⟨bare_mk _ _ _, hl⟩
            · exact .inr ⟨h1.1, hl⟩
        · cases h; exact .inl rfl

/-- A minus sign before an operand of the grammar is read as unary, unless the operand is a bare name that something
unexpected follows. -/
theorem minus_ahead (ctx : List Frame) (f : Nat) :
    (∀ p ts x, pExpr f p ts = some x → (x.1.bare = true → lookAfter (.ops :: ctx) (nextKind x.2) = true) →
      minusAhead ctx .operand [] ts = true) ∧
    (∀ ts x, pPrimary f ts = some x → (x.1.bare = true → lookAfter (.ops :: ctx) (nextKind x.2) = true) →
      minusAhead ctx .operand [] ts = true) := by
  induction f with
  | zero => refine ⟨?_, ?_⟩ <;> intros <;> simp_all [pExpr, pPrimary]
  | succ f ih =>
    obtain ⟨hE, hP⟩ := ih
    refine ⟨?_, ?_⟩
    · intro p ts x h hx
      rw [pExpr] at h
      cases e : pPrimary f ts with
      | none => rw [e] at h; cases h
      | some y =>
        rw [e] at h
        refine hP ts y e ?_
        rcases loop_cases h with rfl | h1
        · exact hx
        · exact fun _ => h1.2 ctx
    · intro ts x h hx
      cases ts with
      | nil =>
        cases h
        exact minus_stop (.inl rfl) (hx rfl) (by intro u r' hr; cases hr)
      | cons t ts =>
        by_cases hf : t.kind = .field
        · rw [pPrimary_field _ _ _ hf] at h
          rw [minus_cons, hf]
          simp only [aheadStep]
          have hA : ∀ x, pAfterField f t ts = some x →
              minusAhead ctx .name [] ts = minusDone ctx [] x.2 ∨ x = (.types t false, ts) := by
            intro x h
            cases f with
            | zero => cases h
            | succ g => exact minus_after (fun ts x h => (minus_inside ctx g).2.2.2.1 [] ts x h) h
          rcases minus_tail (ctx := ctx) (o := []) hA h with h1 | rfl
          · exact h1
          · exact minus_name (hx (by simp [Tree.bare, hf])) (after_plain h)
        · rw [pPrimary_cons] at h
          cases hk : t.kind with
          | lparen =>
            rw [hk] at h
            simp only at h
            rw [minus_cons, hk]
            simp only [aheadStep]
            cases e : pExpr f 0 ts with
            | none => rw [e] at h; cases h
            | some y =>
              obtain ⟨t', r⟩ := y
              rw [e] at h
              cases r with
              | nil => cases h
              | cons r ts' =>
                simp only at h
                split at h
                · rename_i hr
                  cases h
                  rw [(minus_inside ctx f).1 0 .rparen [] ts _ e ⟨r, ts', rfl, .inr (.inl hr)⟩]
                  rw [minus_cons, hr]
                  rfl
                · cases h
          | kNot =>
            rw [hk] at h
            simp only at h
            rw [minus_cons, hk]
            cases e : pExpr f 15 ts with
            | none => rw [e] at h; cases h
            | some y => rw [e] at h; cases h; exact hE 15 ts y e hx
          | arith op =>
            rw [hk] at h
            cases op with
            | sub =>
              simp only at h
              rw [minus_cons, hk]
              cases e : pExpr f 13 ts with
              | none => rw [e] at h; cases h
              | some y => rw [e] at h; cases h; exact hE 13 ts y e hx
            | _ => rw [minus_cons, hk]; rfl
          | fn g =>
            rw [hk] at h
            simp only at h
            rw [minus_cons, hk]
            cases e : pWordlist f ts with
            | none => rw [e] at h; cases h
            | some y => rw [e] at h; cases h; exact (minus_inside ctx f).2.2.2.1 [] ts y e
          | field => exact absurd hk hf
          | _ =>
            rw [hk] at h
            first
              | (cases h; done)
              | (rw [minus_cons, hk]; rfl)
              | (cases h
                 have hl := hx rfl
                 rw [minus_cons, hk]
                 have h' : (isBinKind t.kind || lookAfter ctx t.kind) = true := hl
                 rw [hk] at h'
                 simp only [aheadStep, isLitKind, aheadAfter, h', if_true]
                 rfl)

/-! ## The same tree -/

/-- What follows the piece fits the context, or does not matter. -/
def Okay (ctx : List Frame) (x : Tree × List Token) : Prop := lookAfter ctx (nextKind x.2) = true ∨ x.1.calm = true

theorem lookAfter_ops {ctx : List Frame} {k : TK} (h : lookAfter ctx k = true) : lookAfter (.ops :: ctx) k = true := by
  show (isBinKind k || lookAfter ctx k) = true
  rw [h, Bool.or_true]

theorem Okay.ops {ctx : List Frame} {x : Tree × List Token} (h : Okay ctx x) : Okay (.ops :: ctx) x :=
  h.imp lookAfter_ops id

theorem init_take (t : Token) (ts : List Token) : (RState.init (t :: ts)).take = .init ts := rfl

/-- Before `ts`, after `n` reported errors, not recovering. -/
def RState.at (n : Nat) (ts : List Token) : RState := ⟨ts, false, none, [], n⟩

theorem at_take (n : Nat) (t : Token) (ts : List Token) : (RState.at n (t :: ts)).take = .at n ts := rfl

theorem at_la (n : Nat) (ts : List Token) : (RState.at n ts).la = nextKind ts := rfl

theorem match_at {want after : TK → Bool} {n : Nat} {t : Token} {ts : List Token} (h : want t.kind = true) :
    matchTok want after (.at n (t :: ts)) = some ([t], .at n ts) := by
  have h' : want (RState.at n (t :: ts)).la = true := h
  rw [matchTok, if_pos h']; rfl

theorem sync_at {want : TK → Bool} {n : Nat} {ts : List Token} (h : want (nextKind ts) = true) :
    syncTok want (.at n ts) = some (.at n ts) := by
  have h' : want (RState.at n ts).la = true := h
  rw [syncTok, if_neg (by intro h; cases h), if_pos h']

theorem range_at (ctx : List Frame) (n : Nat) (t lo to_ hi : Token) (ts : List Token) (h2 : to_.kind = .kTo)
    (h3 : isNumKind hi.kind = true) :
    rRange ctx t (.at n (lo :: to_ :: hi :: ts)) = (.to_ t lo (some (hi, hi.text)), true, .at n ts) := by
  rw [rRange, at_take, match_at (by rw [h2]; rfl)]
  simp only
  rw [rUpper, match_at h3]
  simp [RState.at, RState.head]

/-- A piece before `,` or `)` starts with a token that a list expects. -/
theorem starts_list {f p : Nat} {ts : List Token} {x : Tree × List Token} (h : pExpr f p ts = some x)
    (hx : EndsHere x.2) : inListKind (nextKind ts) = true := by
  cases f with
  | zero => cases h
  | succ f =>
    rw [pExpr] at h
    cases e : pPrimary f ts with
    | none => rw [e] at h; cases h
    | some y =>
      rw [e] at h
      have hy := loop_ends h hx
      cases f with
      | zero => cases e
      | succ f =>
        cases ts with
        | nil =>
          cases e
          obtain ⟨u, r', hr, _⟩ := hy
          cases hr
        | cons t ts =>
          show inListKind t.kind = true
          rw [pPrimary_cons] at e
          cases hk : t.kind with
          | eof =>
            rw [hk] at e
            cases e
            obtain ⟨u, r', hr, h⟩ := hy
            cases hr
            rw [hk] at h
            rcases h with h | h | h <;> cases h
          | _ => first | rfl | (rw [hk] at e; cases e)

theorem ends_items {f : Nat} {ts : List Token} {x : List Tree × List Token} (h : pMore f ts = some x) :
    Frame.has .items (nextKind ts) = true := by
  cases f with
  | zero => cases h
  | succ f =>
    cases ts with
    | nil => cases h
    | cons t ts =>
      show Frame.has .items t.kind = true
      rw [pMore] at h
      split at h
      · rename_i ht; rw [ht]; rfl
      · split at h
        · rename_i ht; rw [ht]; rfl
        · cases h

theorem at_cons (n : Nat) (t : Token) (ts : List Token) : (RState.at n (t :: ts)).la = t.kind := rfl

theorem nextKind_cons (t : Token) (ts : List Token) : (RState.init (t :: ts)).la = t.kind := rfl

theorem items_after {ctx : List Frame} {ts : List Token} (h : Frame.has .items (nextKind ts) = true) :
    lookAfter (.items :: ctx) (nextKind ts) = true := h

theorem rPrimary_field (f : Nat) (ctx : List Frame) (n : Nat) {t : Token} (h : t.kind = .field) (ts : List Token) :
    rPrimary (f + 1) ctx (.at n (t :: ts)) =
      if isNumKind (nextKind ts) then some (rRange ctx t (.at n ts)) else rField f ctx t (.at n ts) := by
  rw [rPrimary_succ, at_cons, h]; rfl

/-- On a piece of a text of the grammar the parser with recovery gives the same tree and nothing is reported. -/
theorem parse_agree (f : Nat) :
    (∀ p ctx n ts x, pExpr f p ts = some x → Okay ctx x →
      rExpr (f + 1) p ctx (.at n ts) = some (x.1.up, .at n x.2)) ∧
    (∀ ctx n ts x, pPrimary f ts = some x → Okay (.ops :: ctx) x →
      rPrimary (f + 1) ctx (.at n ts) = some (x.1.up, true, .at n x.2)) ∧
    (∀ ctx t n ts x, pAfterField f t ts = some x →
      rField (f + 1) ctx t (.at n ts) = some (x.1.up, true, .at n x.2)) ∧
    (∀ p ctx l n ts x, pLoop f p l ts = some x → Okay ctx x →
      rLoop (f + 1) p ctx l.up (.at n ts) = some (x.1.up, .at n x.2)) ∧
    (∀ ctx n ts x, pWordlist f ts = some x →
      rWordlist (f + 1) ctx (.at n ts) = some (.complete, Tree.upAll x.1, .at n x.2)) ∧
    (∀ ctx n ts x, pMore f ts = some x →
      rMore (f + 1) ctx (.at n ts) = some (.complete, Tree.upAll x.1, .at n x.2)) := by
  induction f with
  | zero => refine ⟨?_, ?_, ?_, ?_, ?_, ?_⟩ <;> intros <;> simp_all [pExpr, pPrimary, pAfterField, pLoop, pWordlist, pMore]
  | succ f ih =>
    obtain ⟨hE, hP, hA, hL, hW, hM⟩ := ih
    refine ⟨?_, ?_, ?_, ?_, ?_, ?_⟩
    · intro p ctx n ts x h hx
      rw [pExpr] at h
      cases e : pPrimary f ts with
      | none => rw [e] at h; cases h
      | some y =>
        rw [e] at h
        have hy : Okay (.ops :: ctx) y := by
          rcases loop_cases h with rfl | h1
          · exact hx.ops
          · exact .inl (h1.2 ctx)
        rw [rExpr_succ, hP ctx n ts y e hy]
        exact hL p ctx _ n _ _ h hx
    · intro ctx n ts x h hx
      cases ts with
      | nil => cases h; rw [rPrimary_succ]; rfl
      | cons t ts =>
        by_cases hf : t.kind = .field
        · rw [pPrimary_field _ _ _ hf] at h
          rw [rPrimary_field _ _ _ hf]
          match ts, h with
          | [], h => cases h; rw [rField_succ]; rfl
          | [lo], h =>
            simp only [fieldTail] at h
            split at h
            · cases h
            · rename_i hn
              rw [if_neg (show ¬ isNumKind (nextKind (lo :: _)) = true from hn)]
              exact hA ctx t n _ _ h
          | [lo, to_], h =>
            simp only [fieldTail] at h
            split at h
            · cases h
            · rename_i hn
              rw [if_neg (show ¬ isNumKind (nextKind (lo :: _)) = true from hn)]
              exact hA ctx t n _ _ h
          | lo :: to_ :: hi :: ts', h =>
            simp only [fieldTail] at h
            split at h
            · rename_i hn
              rw [if_pos (show isNumKind (nextKind (lo :: _)) = true from hn)]
              split at h
              · rename_i h2
                cases h
                rw [range_at _ _ _ _ _ _ _ h2.1 h2.2]; rfl
              · cases h
            · rename_i hn
              rw [if_neg (show ¬ isNumKind (nextKind (lo :: _)) = true from hn)]
              exact hA ctx t n _ _ h
        · rw [pPrimary_cons] at h
          rw [rPrimary_succ, at_cons]
          cases hk : t.kind with
          | lparen =>
            rw [hk] at h
            simp only at h
            simp only [at_take]
            cases e : pExpr f 0 ts with
            | none => rw [e] at h; cases h
            | some y =>
              obtain ⟨t', r⟩ := y
              rw [e] at h
              cases r with
              | nil => cases h
              | cons r ts' =>
                simp only at h
                split at h
                · rename_i hr
                  cases h
                  have hr' : lookAfter (.rparen :: ctx) (nextKind (r :: ts')) = true := by
                    show Frame.has .rparen r.kind = true
                    rw [hr]; rfl
                  rw [hE 0 (.rparen :: ctx) n ts _ e (.inl hr')]
                  simp only
                  rw [match_at (by rw [hr]; rfl)]
                  rfl
                · cases h
          | kNot =>
            rw [hk] at h
            simp only at h
            simp only [at_take]
            cases e : pExpr f 15 ts with
            | none => rw [e] at h; cases h
            | some y =>
              rw [e] at h; cases h
              rw [hE 15 (.ops :: ctx) n ts y e hx]; rfl
          | arith op =>
            rw [hk] at h
            cases op with
            | sub =>
              simp only at h
              cases e : pExpr f 13 ts with
              | none => rw [e] at h; cases h
              | some y =>
                rw [e] at h; cases h
                have hx1 : y.1.bare = true → lookAfter (.ops :: ctx) (nextKind y.2) = true := by
                  intro hb
                  rcases hx with h | h
                  · exact h
                  · simp [Tree.calm, hb] at h
                have hx2 : Okay (.ops :: ctx) y := by
                  rcases hx with h | h
                  · exact .inl h
                  · simp only [Tree.calm, Bool.and_eq_true] at h
                    exact .inr h.2
                have hm : minusAhead ctx .operand [] (RState.at n (t :: ts)).toks.tail = true :=
                  (minus_ahead ctx f).1 13 ts y e hx1
                simp only [hm, if_true, at_take]
                rw [hE 13 (.ops :: ctx) n ts y e hx2]; rfl
            | _ => cases h; rfl
          | fn g =>
            rw [hk] at h
            simp only at h
            simp only [at_take]
            cases e : pWordlist f ts with
            | none => rw [e] at h; cases h
            | some y => rw [e] at h; cases h; rw [hW (.ops :: ctx) n ts y e]; rfl
          | field => exact absurd hk hf
          | _ => rw [hk] at h; cases h <;> rfl
    · intro ctx t n ts x h
      cases ts with
      | nil => cases h; rw [rField_succ]; rfl
      | cons u us =>
        rw [pAfterField_cons] at h
        rw [rField_succ, at_cons]
        cases hk : u.kind with
        | kIn =>
          rw [hk] at h
          simp only [at_take] at h ⊢
          cases e : pWordlist f us with
          | none => rw [e] at h; cases h
          | some y => rw [e] at h; cases h; rw [hW (.ops :: ctx) n us y e]; rfl
        | cAll =>
          rw [hk] at h
          simp only [at_take] at h ⊢
          cases e : pWordlist f us with
          | none => rw [e] at h; cases h
          | some y => rw [e] at h; cases h; rw [hW (.ops :: ctx) n us y e]; rfl
        | cAny =>
          rw [hk] at h
          simp only [at_take] at h ⊢
          cases e : pWordlist f us with
          | none => rw [e] at h; cases h
          | some y => rw [e] at h; cases h; rw [hW (.ops :: ctx) n us y e]; rfl
        | kNot =>
          rw [hk] at h
          cases us with
          | nil => cases h
          | cons v vs =>
            simp only [at_take] at h ⊢
            split at h
            · rename_i hv
              rw [match_at (by rw [hv]; rfl)]
              simp only
              cases e : pWordlist f vs with
              | none => rw [e] at h; cases h
              | some y => rw [e] at h; cases h; rw [hW (.ops :: ctx) n vs y e]; rfl
            · cases h
        | _ => rw [hk] at h; cases h; rfl
    · intro p ctx l n ts x h hx
      cases ts with
      | nil => rw [pLoop] at h; cases h; rw [rLoop_succ]; rfl
      | cons t ts =>
        rw [pLoop] at h
        rw [rLoop_succ, at_cons]
        cases hb : binTok t.kind with
        | none => rw [hb] at h; cases h; rfl
        | some b =>
          rw [hb] at h
          simp only [at_take] at h ⊢
          split at h
          · rename_i hp
            rw [if_pos hp]
            cases e : pExpr f (b.prec + 1) ts with
            | none => rw [e] at h; cases h
            | some y =>
              rw [e] at h
              have hy : Okay (.ops :: ctx) y := by
                rcases loop_cases h with rfl | h1
                · refine hx.ops.imp id ?_
                  intro h; rwa [calm_mk] at h
                · exact .inl (h1.2 ctx)
              rw [hE _ (.ops :: ctx) n ts y e hy]
              simp only
              rw [← up_mk]
              exact hL p ctx _ n _ _ h hx
          · rename_i hp
            rw [if_neg hp]
            cases h; rfl
    · intro ctx n ts x h
      cases ts with
      | nil => cases h
      | cons t ts =>
        rw [pWordlist] at h
        split at h
        · rename_i ht
          cases e : pExpr f 0 ts with
          | none => rw [e] at h; cases h
          | some y =>
            rw [e] at h
            simp only at h
            cases e2 : pMore f y.2 with
            | none => rw [e2] at h; cases h
            | some z =>
              rw [e2] at h; cases h
              rw [rWordlist_succ, match_at (by rw [ht]; rfl)]
              simp only
              rw [sync_at (starts_list e (more_ends e2))]
              simp only
              rw [hE 0 (.items :: ctx) n ts y e (.inl (items_after (ends_items e2)))]
              simp only
              rw [sync_at (ends_items e2)]
              simp only
              rw [hM ctx n _ z e2]
              rfl
        · cases h
    · intro ctx n ts x h
      cases ts with
      | nil => cases h
      | cons t ts =>
        rw [pMore] at h
        rw [rMore_succ, at_cons]
        split at h
        · rename_i ht
          cases h
          rw [if_neg (by rw [ht]; intro h; cases h), match_at (by rw [ht]; rfl)]
          rfl
        · split at h
          · rename_i ht
            cases e : pExpr f 0 ts with
            | none => rw [e] at h; cases h
            | some y =>
              rw [e] at h
              simp only at h
              cases e2 : pMore f y.2 with
              | none => rw [e2] at h; cases h
              | some z =>
                rw [e2] at h; cases h
                rw [if_pos ht, at_take, sync_at (starts_list e (more_ends e2))]
                simp only
                rw [hE 0 (.items :: ctx) n ts y e (.inl (items_after (ends_items e2)))]
                simp only
                rw [sync_at (ends_items e2)]
                simp only
                rw [hM ctx n _ z e2]
                rfl
          · cases h

end BoolParser
