import Verif.Lemmas.Unclosed
/-!
# Isolated slips

A text of the grammar with tokens missing or added at places where the generated parser repairs the token stream by
inserting or deleting one token is parsed to the tree of the text without the slips.
-/

namespace BoolParser

/-- The tokens a list follows. -/
def opensList : TK → Bool
  | .kIn | .cAll | .cAny | .fn _ => true
  | _ => false

/-- The tokens an operand starts with, except `(`. -/
def startsOperand (k : TK) : Bool :=
  isLitKind k || match k with | .field | .fn _ | .kNot | .arith .sub => true | _ => false

/-- The tokens that continue a name. -/
def continues : TK → Bool
  | .kIn | .kNot | .cAll | .cAny => true
  | k => isNumKind k

/-- A token `x` between `k` and `t` is deleted. -/
def strayAt (k x t : TK) : Bool :=
  (isNumKind k && t == .kTo && x != .kTo) ||
  (k == .kNot && t == .kIn && x != .kIn) ||
  (opensList k && t == .lparen && x != .lparen) ||
  ((t == .comma || t == .rparen) && !isBinKind x && x != .comma && x != .rparen && x != .kTo && x != .eof &&
    (isLitKind k || k == .rparen || (k == .field && !continues x)))

/-- `Lax k n a b`: after a token of kind `k`, `a` is `b` with `n` slips. -/
inductive Lax : TK → Nat → List Token → List Token → Prop
  | nil {k} : Lax k 0 [] []
  | keep {k m t a b} : Lax t.kind m a b → Lax k m (t :: a) (t :: b)
  | noTo {k m t hi a b} : isNumKind k = true → t.kind = .kTo → isNumKind hi.kind = true → Lax hi.kind m a b →
      Lax k (m + 1) (hi :: a) (t :: hi :: b)
  | noIn {m t lp a b} : t.kind = .kIn → lp.kind = .lparen → Lax .lparen m a b → Lax .kNot (m + 1) (lp :: a) (t :: lp :: b)
  | noOpen {k m t u a b} : opensList k = true → t.kind = .lparen → startsOperand u.kind = true →
      nextKind a ≠ .lparen → Lax u.kind m a b → Lax k (m + 1) (u :: a) (t :: u :: b)
  | stray {k m x t a b} : strayAt k x.kind t.kind = true → Lax t.kind m a b → Lax k (m + 1) (x :: t :: a) (t :: b)

theorem Lax.refl (k : TK) (a : List Token) : Lax k 0 a a := by
  induction a generalizing k with
  | nil => exact .nil
  | cons t a ih => exact .keep (ih _)

/-- Where an operand may start. -/
def fresh (k : TK) : Bool := k == .eof || k == .lparen || k == .comma || k == .kNot || isBinKind k

theorem stray_kinds {k x t : TK} (h : strayAt k x t = true) :
    (isNumKind k = true ∧ t = .kTo ∧ x ≠ .kTo) ∨ (k = .kNot ∧ t = .kIn ∧ x ≠ .kIn) ∨
    (opensList k = true ∧ t = .lparen ∧ x ≠ .lparen) ∨
    ((t = .comma ∨ t = .rparen) ∧ isBinKind x = false ∧ x ≠ .comma ∧ x ≠ .rparen ∧ x ≠ .kTo ∧ x ≠ .eof ∧
      (isLitKind k = true ∨ k = .rparen ∨ (k = .field ∧ continues x = false))) := by
  simp only [strayAt, Bool.or_eq_true, Bool.and_eq_true, beq_iff_eq, bne_iff_ne, Bool.not_eq_true', ne_eq] at h
  tauto

/-- Where an operand starts there is no slip, except behind `NOT`. -/
theorem Lax.operand {k : TK} {m : Nat} {a : List Token} {t : Token} {b : List Token} (h : Lax k m a (t :: b))
    (hk : fresh k = true) (ht : t.kind ≠ .kIn) : ∃ a', a = t :: a' ∧ Lax t.kind m a' b := by
  cases h with
  | keep h => exact ⟨_, rfl, h⟩
  | noTo h1 => cases k <;> simp_all [fresh, isNumKind, isBinKind, binTok]
  | noIn h1 => exact absurd h1 ht
  | noOpen h1 => cases k <;> simp_all [fresh, opensList, isBinKind, binTok]
  | stray h1 =>
    rcases stray_kinds h1 with ⟨h1, -⟩ | ⟨-, h1, -⟩ | ⟨h1, -⟩ | ⟨-, -, -, -, -, -, h1⟩
    · cases k <;> simp_all [fresh, isNumKind, isBinKind, binTok]
    · exact absurd h1 ht
    · cases k <;> simp_all [fresh, opensList, isBinKind, binTok]
    · cases k <;> simp_all [fresh, isLitKind, isBinKind, binTok]

theorem Lax.end_ {k : TK} {m : Nat} {a : List Token} (h : Lax k m a []) : a = [] ∧ m = 0 := by
  cases h; exact ⟨rfl, rfl⟩

theorem after_not {ctx : List Frame} {k : TK} (h : lookAfter ctx k = true) : k ≠ .kTo ∧ k ≠ .kIn ∧ k ≠ .lparen := by
  induction ctx with
  | nil =>
    have h : (k == .eof) = true := h
    have := eq_of_beq h
    subst this; decide
  | cons fr ctx ih =>
    cases fr with
    | ops =>
      have h : (isBinKind k || lookAfter ctx k) = true := h
      rcases Bool.or_eq_true _ _ ▸ h with h | h
      · cases k <;> first | (cases h; done) | exact ⟨nofun, nofun, nofun⟩
      · exact ih h
    | _ => cases k <;> first | (cases h; done) | exact ⟨nofun, nofun, nofun⟩

/-- After an operand: the same token, or one token to be deleted before `,` or `)`. -/
theorem Lax.after {k : TK} {m : Nat} {a : List Token} {t : Token} {b : List Token} {ctx : List Frame}
    (h : Lax k m a (t :: b)) (hl : lookAfter ctx t.kind = true) :
    (∃ a', a = t :: a' ∧ Lax t.kind m a' b) ∨
    (∃ x a' m', a = x :: t :: a' ∧ m = m' + 1 ∧ Lax t.kind m' a' b ∧ (t.kind = .comma ∨ t.kind = .rparen) ∧
      isBinKind x.kind = false ∧ x.kind ≠ .comma ∧ x.kind ≠ .rparen ∧ x.kind ≠ .kTo ∧ x.kind ≠ .eof ∧
      (k = .field → continues x.kind = false)) := by
  obtain ⟨n1, n2, n3⟩ := after_not hl
  cases h with
  | keep h => exact .inl ⟨_, rfl, h⟩
  | noTo _ h1 => exact absurd h1 n1
  | noIn h1 => exact absurd h1 n2
  | noOpen _ h1 => exact absurd h1 n3
  | stray h1 h =>
    rcases stray_kinds h1 with ⟨-, h1, -⟩ | ⟨-, h1, -⟩ | ⟨-, h1, -⟩ | ⟨h2, h3, h4, h5, h6, h7, h8⟩
    · exact absurd h1 n1
    · exact absurd h1 n2
    · exact absurd h1 n3
    · refine .inr ⟨_, _, _, rfl, rfl, h, h2, h3, h4, h5, h6, h7, ?_⟩
      rintro rfl
      rcases h8 with h8 | h8 | h8
      · cases h8
      · cases h8
      · exact h8.2

/-! ## The parser on a text with slips -/

/-- The parser leaves `rest` (with what is left of the `m` slips) and has reported one error for each slip behind it. -/
def Leftover (m n : Nat) (rest : List Token) (P : RState → Prop) : Prop :=
  ∃ k j m' r, m = j + m' ∧ Lax k m' r rest ∧ P (.at (n + j) r)

theorem Leftover.here {k : TK} {m n : Nat} {r rest : List Token} {P : RState → Prop} (h : Lax k m r rest) (hp : P (.at n r)) :
    Leftover m n rest P := ⟨k, 0, m, r, by omega, h, hp⟩

/-- After `i` further slips. -/
theorem Leftover.later {m n i : Nat} {rest : List Token} {P : RState → Prop} (h : Leftover m (n + i) rest P) :
    Leftover (m + i) n rest P := by
  obtain ⟨k, j, m', r, h1, h2, h3⟩ := h
  exact ⟨k, i + j, m', r, by omega, h2, by rwa [Nat.add_assoc] at h3⟩

theorem Leftover.mono {m n : Nat} {rest : List Token} {P Q : RState → Prop} (h : Leftover m n rest P) (hq : ∀ s, P s → Q s) :
    Leftover m n rest Q := by
  obtain ⟨k, j, m', r, h1, h2, h3⟩ := h
  exact ⟨k, j, m', r, h1, h2, hq _ h3⟩

theorem lit_ahead (ctx : List Frame) {a : List Token} (h : startsLit a = true) : minusAhead ctx .operand [] a = true := by
  cases a with
  | nil => cases h
  | cons t a =>
    have h : isLitKind t.kind = true := h
    rw [minus_cons]
    cases hk : t.kind <;> rw [hk] at h <;> first | (cases h; done) | rfl

/-- A state in which an error has just been reported is as good as a clean one, if a token can be consumed. -/
theorem rPrimary_clean (f : Nat) (ctx : List Frame) {u : Token} {a : List Token} {n : Nat} {s : RState}
    (hs : s.toks = u :: a) (hn : s.errors = n) (hu : startsOperand u.kind = true)
    (hm : u.kind = .arith .sub → startsLit a = true) : rPrimary f ctx s = rPrimary f ctx (.at n (u :: a)) := by
  have h1 : s.take = .at n a := by
    unfold RState.take RState.reportMatch RState.consume RState.at
    simp [hs, hn]
  have h2 : s.head = u := by unfold RState.head; rw [hs]
  cases f with
  | zero => rw [rPrimary, rPrimary]
  | succ f =>
    rw [rPrimary_succ, rPrimary_succ, h1, at_take, show s.la = u.kind by unfold RState.la; rw [h2], at_cons, h2,
      show (RState.at n (u :: a)).head = u from rfl, hs]
    cases hk : u.kind with
    | arith op =>
      cases op with
      | sub =>
        simp only [RState.at, List.tail_cons, lit_ahead ctx (hm hk), if_true]
      | _ => rw [hk] at hu; cases hu
    | _ => first | rfl | (rw [hk] at hu; cases hu)

theorem rExpr_clean (f p : Nat) (ctx : List Frame) {u : Token} {a : List Token} {n : Nat} {s : RState}
    (hs : s.toks = u :: a) (hn : s.errors = n) (hu : startsOperand u.kind = true)
    (hm : u.kind = .arith .sub → startsLit a = true) : rExpr f p ctx s = rExpr f p ctx (.at n (u :: a)) := by
  cases f with
  | zero => rw [rExpr, rExpr]
  | succ f => rw [rExpr_succ, rExpr_succ, rPrimary_clean f ctx hs hn hu hm]

theorem rWordlist_clean (f : Nat) (ctx : List Frame) {u : Token} {a : List Token} {n : Nat} {s : RState}
    (hs : s.toks = u :: a) (hn : s.errors = n) (hu : u.kind = .lparen) :
    rWordlist f ctx s = rWordlist f ctx (.at n (u :: a)) := by
  have h1 : s.take = .at n a := by
    unfold RState.take RState.reportMatch RState.consume RState.at
    simp [hs, hn]
  have h2 : s.head = u := by unfold RState.head; rw [hs]
  cases f with
  | zero => rw [rWordlist, rWordlist]
  | succ f =>
    have h3 : matchTok (· == .lparen) inListKind s = some ([u], .at n a) := by
      unfold matchTok
      rw [if_pos (by unfold RState.la; rw [h2, hu]; rfl), h1, h2]
    rw [rWordlist_succ, rWordlist_succ, h3, match_at (by rw [hu]; rfl)]

/-- One token deleted. -/
theorem match_stray {want after : TK → Bool} {n : Nat} {x t : Token} {ts : List Token} (hx : want x.kind = false)
    (h : want t.kind = true) : matchTok want after (.at n (x :: t :: ts)) = some ([x, t], .at (n + 1) ts) := by
  have h1 : ¬ want (RState.at n (x :: t :: ts)).la = true := by rw [at_cons, hx]; exact Bool.false_ne_true
  have h2 : want (RState.at n (x :: t :: ts)).la2 = true := h
  rw [matchTok, if_neg h1, if_pos h2]; rfl

/-- One token inserted. -/
theorem match_missing {want after : TK → Bool} {n : Nat} {t : Token} {ts : List Token} (h1 : want t.kind = false)
    (h2 : want (nextKind ts) = false) (h3 : after t.kind = true) :
    matchTok want after (.at n (t :: ts)) = some ([], ⟨t :: ts, true, none, [], n + 1⟩) := by
  have e1 : ¬ want (RState.at n (t :: ts)).la = true := by rw [at_cons, h1]; exact Bool.false_ne_true
  have e2 : ¬ want (RState.at n (t :: ts)).la2 = true := by
    have : (RState.at n (t :: ts)).la2 = nextKind ts := by cases ts <;> rfl
    rw [this, h2]; exact Bool.false_ne_true
  have e3 : after (RState.at n (t :: ts)).la = true := h3
  rw [matchTok, if_neg e1, if_neg e2, if_pos e3]; rfl

theorem sync_stray {want : TK → Bool} {n : Nat} {x t : Token} {ts : List Token} (hx : want x.kind = false)
    (h : want t.kind = true) : syncTok want (.at n (x :: t :: ts)) = some (.at (n + 1) (t :: ts)) := by
  have h1 : ¬ want (RState.at n (x :: t :: ts)).la = true := by rw [at_cons, hx]; exact Bool.false_ne_true
  have h2 : want (RState.at n (x :: t :: ts)).la2 = true := h
  rw [syncTok, if_neg (by intro h; cases h), if_neg h1, if_pos h2]; rfl

/-- Before the next `,` or `)` of a list. -/
theorem Lax.items {k : TK} {m n : Nat} {a : List Token} {b : List Token} (h : Lax k m a b)
    (hb : Frame.has .items (nextKind b) = true) :
    ∃ t a' b' i m', b = t :: b' ∧ m = i + m' ∧ Lax t.kind m' a' b' ∧
      syncTok (Frame.has .items) (.at n a) = some (.at (n + i) (t :: a')) := by
  cases b with
  | nil => cases hb
  | cons t b =>
    have hb' : Frame.has .items t.kind = true := hb
    rcases h.after (ctx := [.items]) hb with ⟨a', rfl, h'⟩ | ⟨x, a', m', rfl, rfl, h', -, -, h4, h5, -⟩
    · exact ⟨t, a', b, 0, m, rfl, by omega, h', sync_at hb⟩
    · refine ⟨t, a', b, 1, m', rfl, by omega, h', sync_stray ?_ hb'⟩
      show (x.kind == .comma || x.kind == .rparen) = false
      simp [h4, h5]

theorem fresh_bin {k : TK} (h : isBinKind k = true) : fresh k = true := by
  unfold fresh; rw [h, Bool.or_true]

theorem slips_parse (f : Nat) :
    (∀ p ctx n k m a b x, pExpr f p b = some x → fresh k = true → signs true b = true →
      lookAfter ctx (nextKind x.2) = true → Lax k m a b →
      Leftover m n x.2 fun s => rExpr (f + 1) p ctx (.at n a) = some (x.1.up, s)) ∧
    (∀ ctx n k m a b x, pPrimary f b = some x → fresh k = true → signs true b = true →
      lookAfter (.ops :: ctx) (nextKind x.2) = true → Lax k m a b →
      Leftover m n x.2 fun s => rPrimary (f + 1) ctx (.at n a) = some (x.1.up, true, s)) ∧
    (∀ ctx t n m a b x, pAfterField f t b = some x → signs false b = true →
      lookAfter (.ops :: ctx) (nextKind x.2) = true → Lax .field m a b →
      Leftover m n x.2 fun s => rField (f + 1) ctx t (.at n a) = some (x.1.up, true, s)) ∧
    (∀ p ctx l n k m a b x, pLoop f p l b = some x → signs false b = true →
      lookAfter ctx (nextKind x.2) = true → Lax k m a b →
      Leftover m n x.2 fun s => rLoop (f + 1) p ctx l.up (.at n a) = some (x.1.up, s)) ∧
    (∀ ctx n k m a b x, pWordlist f b = some x → signs false b = true → opensList k = true → Lax k m a b →
      Leftover m n x.2 fun s => rWordlist (f + 1) ctx (.at n a) = some (.complete, Tree.upAll x.1, s)) ∧
    (∀ ctx n m t a b x, pMore f (t :: b) = some x → signs false (t :: b) = true → Lax t.kind m a b →
      Leftover m n x.2 fun s => rMore (f + 1) ctx (.at n (t :: a)) = some (.complete, Tree.upAll x.1, s)) := by
  induction f with
  | zero => refine ⟨?_, ?_, ?_, ?_, ?_, ?_⟩ <;> intros <;> simp_all [pExpr, pPrimary, pAfterField, pLoop, pWordlist, pMore]
  | succ f ih =>
    obtain ⟨hE, hP, hA, hL, hW, hM⟩ := ih
    refine ⟨?_, ?_, ?_, ?_, ?_, ?_⟩
    · intro p ctx n k m a b x h hk hs hx ha
      rw [pExpr] at h
      cases e : pPrimary f b with
      | none => rw [e] at h; cases h
      | some y =>
        rw [e] at h
        have hy : lookAfter (.ops :: ctx) (nextKind y.2) = true := by
          rcases loop_cases h with rfl | h1
          · exact lookAfter_ops hx
          · exact h1.2 ctx
        obtain ⟨k1, j, m1, r, rfl, h1, h2⟩ := hP ctx n k m a b y e hk hs hy ha
        have := hL p ctx _ (n + j) k1 m1 r y.2 x h ((signs_parse f).2.1 _ _ e hs).2 hx h1
        rw [Nat.add_comm j m1]
        refine Leftover.later (this.mono ?_)
        intro s hs'
        rw [rExpr_succ, h2]
        exact hs'
    · intro ctx n k m a b x h hk hs hx ha
      cases b with
      | nil =>
        cases h
        obtain ⟨rfl, rfl⟩ := ha.end_
        exact .here ha (by rw [rPrimary_succ]; rfl)
      | cons t b =>
        have hin : t.kind ≠ .kIn := by
          intro hin
          rw [pPrimary_cons, hin] at h
          cases h
        obtain ⟨a', rfl, ha'⟩ := ha.operand hk hin
        by_cases hf : t.kind = .field
        · rw [hf] at ha'
          rw [pPrimary_field _ _ _ hf] at h
          cases b with
          | nil =>
            cases h
            obtain ⟨rfl, rfl⟩ := ha'.end_
            exact .here ha' (by rw [rPrimary_field _ _ _ hf, if_neg (by exact Bool.false_ne_true), rField_succ]; rfl)
          | cons lo b =>
            by_cases hn : isNumKind lo.kind = true
            · obtain ⟨to_, hi, b', rfl, hto, hhi, rfl⟩ := fieldTail_num hn h
              obtain ⟨a2, rfl, ha2⟩ : ∃ a2, a' = lo :: a2 ∧ Lax lo.kind m a2 (to_ :: hi :: b') := by
                cases ha' with
                | keep h => exact ⟨_, rfl, h⟩
                | noTo h1 => cases h1
                | noOpen h1 => cases h1
                | stray h1 =>
                  rcases stray_kinds h1 with ⟨h1, -⟩ | ⟨h1, -⟩ | ⟨h1, -⟩ | ⟨h1 | h1, -⟩
                  · cases h1
                  · cases h1
                  · cases h1
                  · rw [h1] at hn; cases hn
                  · rw [h1] at hn; cases hn
              have key : ∀ n m a3, Lax .kTo m a3 (hi :: b') → ∃ a4, a3 = hi :: a4 ∧ Lax hi.kind m a4 b' ∧
                  rUpper ctx (.at n a3) = ((hi, hi.text), .at n a4) := by
                intro n m a3 h3
                obtain ⟨a4, rfl, h4⟩ : ∃ a4, a3 = hi :: a4 ∧ Lax hi.kind m a4 b' := by
                  cases h3 with
                  | keep h => exact ⟨_, rfl, h⟩
                  | noTo h1 => cases h1
                  | noOpen h1 => cases h1
                  | stray h1 =>
                    rcases stray_kinds h1 with ⟨h1, -⟩ | ⟨h1, -⟩ | ⟨h1, -⟩ | ⟨-, -, -, -, -, -, h1 | h1 | h1⟩
                    · cases h1
                    · cases h1
                    · cases h1
                    · cases h1
                    · cases h1
                    · cases h1.1
                refine ⟨a4, rfl, h4, ?_⟩
                rw [rUpper, match_at hhi]
                simp [RState.at, RState.head]
              have start : ∀ n a3, rPrimary (f + 1 + 1) ctx (.at n (t :: lo :: a3)) =
                  some (rRange ctx t (.at n (lo :: a3))) := by
                intro n a3
                rw [rPrimary_field _ _ _ hf, if_pos (by exact hn)]
              have hn2 := hn
              generalize lo.kind = kl at ha2 hn2
              cases ha2 with
              | keep h3 =>
                rw [hto] at h3
                obtain ⟨a4, rfl, h4, h5⟩ := key n _ _ h3
                refine .here h4 ?_
                rw [start, rRange, at_take, match_at (by rw [hto]; rfl)]
                simp only
                rw [h5]; rfl
              | noTo g1 g2 g3 h4 =>
                rename_i m a4
                refine Leftover.later (i := 1) (.here h4 ?_)
                have hne : nextKind a4 ≠ .kTo := by
                  cases b' with
                  | nil => obtain ⟨rfl, -⟩ := h4.end_; show TK.eof ≠ .kTo; decide
                  | cons v b' =>
                    rcases h4.after hx with ⟨a5, rfl, -⟩ | ⟨y, a5, m', rfl, -, -, -, -, -, -, h6, -⟩
                    · exact (after_not hx).1
                    · exact h6
                rw [start, rRange, at_take, match_missing (by cases hk : hi.kind <;> rw [hk] at hhi <;> first | rfl | cases hhi)
                  (by simpa using hne) hhi]
                simp only
                rw [rUpper]
                have e1 : matchTok isNumKind (lookAfter (.ops :: ctx)) ⟨hi :: a4, true, none, [], n + 1⟩ =
                    some ([hi], .at (n + 1) a4) := by
                  rw [matchTok, if_pos (by exact hhi)]; rfl
                rw [e1]
                simp [RState.head, RState.at, Tree.up]
              | noIn h1 => cases hn2
              | noOpen h1 h2 => rw [hto] at h2; cases h2
              | stray h1 h3 =>
                rename_i m y a3
                have hy : y.kind ≠ .kTo := by
                  rcases stray_kinds h1 with ⟨-, -, h1⟩ | ⟨-, h1, -⟩ | ⟨-, h1, -⟩ | ⟨h1 | h1, -⟩
                  · exact h1
                  · rw [hto] at h1; cases h1
                  · rw [hto] at h1; cases h1
                  · rw [hto] at h1; cases h1
                  · rw [hto] at h1; cases h1
                rw [hto] at h3
                obtain ⟨a4, rfl, h4, h5⟩ := key (n + 1) _ _ h3
                refine Leftover.later (i := 1) (.here h4 ?_)
                rw [start, rRange, at_take, match_stray (by simpa using hy) (by rw [hto]; rfl)]
                simp only
                rw [h5]; rfl
            · have hn' : isNumKind lo.kind = false := by simpa using hn
              rw [fieldTail_plain _ _ hn'] at h
              refine (hA ctx t n m a' _ x h (signs_tail hs) hx ha').mono ?_
              intro s hs'
              have hnum : isNumKind (nextKind a') = false := by
                cases ha' with
                | keep _ => exact hn'
                | noTo h1 => cases h1
                | noOpen h1 => cases h1
                | stray h1 =>
                  rcases stray_kinds h1 with ⟨h1, -⟩ | ⟨h1, -⟩ | ⟨h1, -⟩ | ⟨-, -, -, -, -, -, h1 | h1 | h1⟩
                  · cases h1
                  · cases h1
                  · cases h1
                  · cases h1
                  · cases h1
                  · rename_i y _ _ _
                    have h1 := h1.2
                    show isNumKind y.kind = false
                    cases hy : y.kind <;> rw [hy] at h1 <;> first | rfl | cases h1
              rw [rPrimary_field _ _ _ hf, hnum]
              exact hs'
        · rw [pPrimary_cons] at h
          have hs2 := signs_tail hs
          have hnf : operandEnd t.kind = false → signs true b = true := signs_cons hs
          cases hk : t.kind with
          | lparen =>
            rw [hk] at h ha' hnf
            simp only at h
            cases e : pExpr f 0 b with
            | none => rw [e] at h; cases h
            | some y =>
              obtain ⟨t', r⟩ := y
              rw [e] at h
              cases r with
              | nil => cases h
              | cons rp b' =>
                simp only at h
                split at h
                · rename_i hr
                  cases h
                  have hr' : lookAfter (.rparen :: ctx) (nextKind (rp :: b')) = true := by
                    show Frame.has .rparen rp.kind = true
                    rw [hr]; rfl
                  obtain ⟨k1, j, m1, r, rfl, h1, h2⟩ := hE 0 (.rparen :: ctx) n _ _ a' b _ e rfl (hnf rfl) hr' ha'
                  rw [Nat.add_comm j m1]
                  refine Leftover.later ?_
                  rcases h1.after hr' with ⟨r1, rfl, h3⟩ | ⟨y, r1, m', rfl, rfl, h3, -, -, -, h4, -⟩
                  · refine .here h3 ?_
                    rw [rPrimary_succ, at_cons, hk]
                    simp only [at_take]
                    rw [h2]
                    simp only
                    rw [match_at (by rw [hr]; rfl)]
                    rfl
                  · refine Leftover.later (i := 1) (.here h3 ?_)
                    rw [rPrimary_succ, at_cons, hk]
                    simp only [at_take]
                    rw [h2]
                    simp only
                    rw [match_stray (by simpa using h4) (by rw [hr]; rfl)]
                    rfl
                · cases h
          | kNot =>
            rw [hk] at h ha' hnf
            simp only at h
            cases e : pExpr f 15 b with
            | none => rw [e] at h; cases h
            | some y =>
              rw [e] at h; cases h
              refine (hE 15 (.ops :: ctx) n _ _ a' b y e rfl (hnf rfl) hx ha').mono ?_
              intro s hs'
              rw [rPrimary_succ, at_cons, hk]
              simp only [at_take]
              rw [hs']; rfl
          | arith op =>
            rw [hk] at h ha' hnf
            cases op with
            | sub =>
              simp only at h
              cases e : pExpr f 13 b with
              | none => rw [e] at h; cases h
              | some y =>
                rw [e] at h; cases h
                refine (hE 13 (.ops :: ctx) n _ _ a' b y e rfl (hnf rfl) hx ha').mono ?_
                intro s hs'
                have hl : startsLit b = true := by
                  simp only [signs, hk, Bool.and_eq_true] at hs
                  simpa using hs.1
                have hl' : startsLit a' = true := by
                  cases b with
                  | nil => cases hl
                  | cons v b =>
                    have hl : isLitKind v.kind = true := hl
                    have hv : v.kind ≠ .kIn := by intro hv; rw [hv] at hl; cases hl
                    obtain ⟨a2, rfl, -⟩ := ha'.operand rfl hv
                    exact hl
                rw [rPrimary_succ, at_cons, hk]
                have hm : minusAhead ctx .operand [] (RState.at n (t :: a')).toks.tail = true := lit_ahead ctx hl'
                simp only [hm, if_true, at_take]
                rw [hs']; rfl
            | _ =>
              cases h
              exact .here ha (by rw [rPrimary_succ, at_cons, hk]; rfl)
          | fn g =>
            rw [hk] at h ha'
            simp only at h
            cases e : pWordlist f b with
            | none => rw [e] at h; cases h
            | some y =>
              rw [e] at h; cases h
              refine (hW (.ops :: ctx) n _ m a' b y e hs2 rfl ha').mono ?_
              intro s hs'
              rw [rPrimary_succ, at_cons, hk]
              simp only [at_take]
              rw [hs']; rfl
          | field => exact absurd hk hf
          | _ =>
            rw [hk] at h
            first
              | (cases h; done)
              | (cases h; exact .here ha' (by rw [rPrimary_succ, at_cons, hk]; rfl))
              | (cases h; exact .here ha (by rw [rPrimary_succ, at_cons, hk]; rfl))
    · intro ctx t n m a b x h hs hx ha
      cases b with
      | nil =>
        cases h
        obtain ⟨rfl, rfl⟩ := ha.end_
        exact .here ha (by rw [rField_succ]; rfl)
      | cons u us =>
        rw [pAfterField_cons] at h
        have hs' := signs_tail hs
        have kept : u.kind ≠ .comma → u.kind ≠ .rparen → ∃ a', a = u :: a' ∧ Lax u.kind m a' us := by
          intro h1 h2
          cases ha with
          | keep h => exact ⟨_, rfl, h⟩
          | noTo h1 => cases h1
          | noOpen h1 => cases h1
          | stray h3 =>
            rcases stray_kinds h3 with ⟨h3, -⟩ | ⟨h3, -⟩ | ⟨h3, -⟩ | ⟨h3 | h3, -⟩
            · cases h3
            · cases h3
            · cases h3
            · exact absurd h3 h1
            · exact absurd h3 h2
        cases hk : u.kind with
        | kIn =>
          rw [hk] at h
          obtain ⟨a', rfl, ha'⟩ := kept (by rw [hk]; nofun) (by rw [hk]; nofun)
          rw [hk] at ha'
          simp only at h
          cases e : pWordlist f us with
          | none => rw [e] at h; cases h
          | some y =>
            rw [e] at h; cases h
            refine (hW (.ops :: ctx) n _ m a' us y e hs' rfl ha').mono ?_
            intro s hs'
            rw [rField_succ, at_cons, hk]
            simp only [at_take]
            rw [hs']; rfl
        | cAll =>
          rw [hk] at h
          obtain ⟨a', rfl, ha'⟩ := kept (by rw [hk]; nofun) (by rw [hk]; nofun)
          rw [hk] at ha'
          simp only at h
          cases e : pWordlist f us with
          | none => rw [e] at h; cases h
          | some y =>
            rw [e] at h; cases h
            refine (hW (.ops :: ctx) n _ m a' us y e hs' rfl ha').mono ?_
            intro s hs'
            rw [rField_succ, at_cons, hk]
            simp only [at_take]
            rw [hs']; rfl
        | cAny =>
          rw [hk] at h
          obtain ⟨a', rfl, ha'⟩ := kept (by rw [hk]; nofun) (by rw [hk]; nofun)
          rw [hk] at ha'
          simp only at h
          cases e : pWordlist f us with
          | none => rw [e] at h; cases h
          | some y =>
            rw [e] at h; cases h
            refine (hW (.ops :: ctx) n _ m a' us y e hs' rfl ha').mono ?_
            intro s hs'
            rw [rField_succ, at_cons, hk]
            simp only [at_take]
            rw [hs']; rfl
        | kNot =>
          rw [hk] at h
          obtain ⟨a', rfl, ha'⟩ := kept (by rw [hk]; nofun) (by rw [hk]; nofun)
          rw [hk] at ha'
          cases us with
          | nil => cases h
          | cons v vs =>
            simp only at h
            split at h
            · rename_i hv
              cases e : pWordlist f vs with
              | none => rw [e] at h; cases h
              | some y =>
                rw [e] at h; cases h
                have hs2 := signs_tail hs'
                cases ha' with
                | keep h1 =>
                  rw [hv] at h1
                  refine (hW (.ops :: ctx) n _ _ _ vs y e hs2 rfl h1).mono ?_
                  intro s hs'
                  rw [rField_succ, at_cons, hk]
                  simp only [at_take]
                  rw [match_at (by rw [hv]; rfl)]
                  simp only
                  rw [hs']; rfl
                | noTo h1 => cases h1
                | noOpen h1 => cases h1
                | noIn h1 h2 h3 =>
                  rename_i m lp a2 b2
                  have h4 : Lax .kIn m (lp :: a2) (lp :: b2) := .keep (by rwa [h2])
                  refine Leftover.later (i := 1) ((hW (.ops :: ctx) (n + 1) _ _ _ _ y e hs2 rfl h4).mono ?_)
                  intro s hs'
                  have hne : nextKind a2 ≠ .kIn := by
                    match f, e with
                    | f + 1, e =>
                      rw [pWordlist, if_pos h2] at e
                      cases e3 : pExpr f 0 b2 with
                      | none => rw [e3] at e; cases e
                      | some z =>
                        rw [e3] at e
                        simp only at e
                        cases e4 : pMore f z.2 with
                        | none => rw [e4] at e; cases e
                        | some w =>
                          have hl := starts_list e3 (more_ends e4)
                          cases b2 with
                          | nil => obtain ⟨rfl, -⟩ := h3.end_; exact nofun
                          | cons v2 b2 =>
                            have hv2 : v2.kind ≠ .kIn := by
                              intro hv2
                              have hl : inListKind v2.kind = true := hl
                              rw [hv2] at hl; cases hl
                            obtain ⟨a3, rfl, -⟩ := h3.operand rfl hv2
                            exact hv2
                  rw [rField_succ, at_cons, hk]
                  simp only [at_take]
                  rw [match_missing (by rw [h2]; rfl) (by simpa using hne) (by rw [h2]; rfl)]
                  simp only
                  rw [rWordlist_clean (n := n + 1) _ _ rfl rfl h2, hs']; rfl
                | stray h1 h3 =>
                  rename_i m y' a2
                  have hy : y'.kind ≠ .kIn := by
                    rcases stray_kinds h1 with ⟨h1, -⟩ | ⟨-, -, h1⟩ | ⟨h1, -⟩ | ⟨-, -, -, -, -, -, h1 | h1 | h1⟩
                    · cases h1
                    · exact h1
                    · cases h1
                    · cases h1
                    · cases h1
                    · cases h1.1
                  rw [hv] at h3
                  refine Leftover.later (i := 1) ((hW (.ops :: ctx) (n + 1) _ _ _ _ y e hs2 rfl h3).mono ?_)
                  intro s hs'
                  rw [rField_succ, at_cons, hk]
                  simp only [at_take]
                  rw [match_stray (by simpa using hy) (by rw [hv]; rfl)]
                  simp only
                  rw [hs']; rfl
            · cases h
        | _ =>
          rw [hk] at h; cases h
          refine .here ha ?_
          rcases ha.after hx with ⟨a', rfl, -⟩ | ⟨y, a', m', rfl, -, -, -, -, -, -, -, -, h2⟩
          · rw [rField_succ, at_cons, hk]; rfl
          · have h2 := h2 rfl
            rw [rField_succ, at_cons]
            cases hy : y.kind <;> rw [hy] at h2 <;> first | rfl | cases h2
    · intro p ctx l n k m a b x h hs hx ha
      cases b with
      | nil =>
        rw [pLoop] at h; cases h
        obtain ⟨rfl, rfl⟩ := ha.end_
        exact .here ha (by rw [rLoop_succ]; rfl)
      | cons t b =>
        rw [pLoop] at h
        cases hb : binTok t.kind with
        | none =>
          rw [hb] at h; cases h
          refine .here ha ?_
          rcases ha.after hx with ⟨a', rfl, -⟩ | ⟨y, a', m', rfl, -, -, -, h2, -⟩
          · rw [rLoop_succ, at_cons, hb]
          · rw [rLoop_succ, at_cons]
            unfold isBinKind at h2
            cases e : binTok y.kind with
            | none => rfl
            | some b => rw [e] at h2; cases h2
        | some o =>
          rw [hb] at h
          have hbin : isBinKind t.kind = true := by unfold isBinKind; rw [hb]; rfl
          obtain ⟨a', rfl, ha'⟩ : ∃ a', a = t :: a' ∧ Lax t.kind m a' b := by
            rcases ha.after (ctx := [.ops]) (by show (isBinKind t.kind || _) = true; rw [hbin]; rfl) with
              h | ⟨y, a', m', -, -, -, h1 | h1, -⟩
            · exact h
            · rw [h1] at hb; cases hb
            · rw [h1] at hb; cases hb
          simp only at h
          split at h
          · rename_i hp
            cases e : pExpr f (o.prec + 1) b with
            | none => rw [e] at h; cases h
            | some y =>
              rw [e] at h
              have hy : lookAfter (.ops :: ctx) (nextKind y.2) = true := by
                rcases loop_cases h with rfl | h1
                · exact lookAfter_ops hx
                · exact h1.2 ctx
              have hsb := signs_cons hs (bin_operandEnd hb)
              obtain ⟨k1, j, m1, r, rfl, h1, h2⟩ := hE _ (.ops :: ctx) n _ _ a' b y e (fresh_bin hbin) hsb hy ha'
              have := hL p ctx _ (n + j) k1 m1 r y.2 x h ((signs_parse f).1 _ _ _ e hsb).2 hx h1
              rw [Nat.add_comm j m1]
              refine Leftover.later (this.mono ?_)
              intro s hs'
              rw [rLoop_succ, at_cons, hb]
              simp only [at_take]
              rw [if_pos hp, h2]
              simp only
              rw [← up_mk]
              exact hs'
          · rename_i hp
            cases h
            refine .here ha ?_
            rw [rLoop_succ, at_cons, hb]
            simp only
            rw [if_neg hp]
    · intro ctx n k m a b x h hs hk ha
      cases b with
      | nil => cases h
      | cons t b =>
        rw [pWordlist] at h
        split at h
        · rename_i ht
          cases e : pExpr f 0 b with
          | none => rw [e] at h; cases h
          | some y =>
            rw [e] at h
            simp only at h
            cases e2 : pMore f y.2 with
            | none => rw [e2] at h; cases h
            | some z =>
              rw [e2] at h; cases h
              have hsb := signs_cons hs (by rw [ht]; rfl)
              have hin : ∀ m a, Lax .lparen m a b → inListKind (nextKind a) = true := by
                intro m a ha
                have := starts_list e (more_ends e2)
                cases b with
                | nil => obtain ⟨rfl, -⟩ := ha.end_; exact this
                | cons v b =>
                  by_cases hv : v.kind = .kIn
                  · have : inListKind v.kind = true := this
                    rw [hv] at this; cases this
                  · obtain ⟨a', rfl, -⟩ := ha.operand rfl hv
                    exact this
              have key : ∀ n m a, Lax .lparen m a b → ∀ s1 s2, matchTok (· == .lparen) inListKind s1 = some s2 →
                  (∃ s3, syncTok inListKind s2.2 = some s3 ∧
                    rExpr (f + 1) 0 (.items :: ctx) s3 = rExpr (f + 1) 0 (.items :: ctx) (.at n a)) →
                  Leftover m n z.2 fun s => rWordlist (f + 1 + 1) ctx s1 = some (.complete, Tree.upAll (y.1 :: z.1), s) := by
                rintro n m a ha s1 ⟨us, s2⟩ hm1 ⟨s3, hm2, hm3⟩
                obtain ⟨k1, j, m1, r, rfl, h1, h2⟩ := hE 0 (.items :: ctx) n _ _ a b y e rfl hsb
                  (items_after (ends_items e2)) ha
                obtain ⟨u, r', b', i, m2, hb', rfl, h3, h4⟩ := h1.items (n := n + j) (ends_items e2)
                rw [hb'] at e2
                have := hM ctx (n + j + i) m2 u r' b' z e2 (hb' ▸ ((signs_parse f).1 _ _ _ e hsb).2) h3
                rw [show j + (i + m2) = m2 + i + j by omega]
                refine Leftover.later (Leftover.later (this.mono ?_))
                intro s hs'
                rw [rWordlist_succ, hm1]
                simp only
                rw [hm2]
                simp only
                rw [hm3, h2]
                simp only
                rw [h4]
                simp only
                rw [hs']
                rfl
              cases ha with
              | keep h1 =>
                rw [ht] at h1
                exact key n _ _ h1 _ _ (match_at (by rw [ht]; rfl)) ⟨_, sync_at (hin _ _ h1), rfl⟩
              | noTo _ h1 => rw [ht] at h1; cases h1
              | noIn => cases hk
              | noOpen h1 h2 h3 h4 h5 =>
                rename_i m u a2 b2
                have h6 : Lax .lparen m (u :: a2) (u :: b2) := .keep h5
                refine Leftover.later (i := 1) ?_
                refine key (n + 1) _ _ h6 _ _ (match_missing ?_ (by simpa using h4) (hin _ _ h6)) ⟨_, rfl, ?_⟩
                · cases hu : u.kind <;> rw [hu] at h3 <;> first | rfl | cases h3
                · refine rExpr_clean _ _ _ rfl rfl h3 ?_
                  intro hu
                  have hl : startsLit b2 = true := by
                    simp only [signs, hu, Bool.and_eq_true] at hsb
                    simpa using hsb.1
                  cases b2 with
                  | nil => cases hl
                  | cons v b2 =>
                    have hl : isLitKind v.kind = true := hl
                    have hv : v.kind ≠ .kIn := by intro hv; rw [hv] at hl; cases hl
                    rw [hu] at h5
                    obtain ⟨a3, rfl, -⟩ := h5.operand rfl hv
                    exact hl
              | stray h1 h3 =>
                rename_i m v a2
                have hv : v.kind ≠ .lparen := by
                  rcases stray_kinds h1 with ⟨-, h1, -⟩ | ⟨-, h1, -⟩ | ⟨-, -, h1⟩ | ⟨h1 | h1, -⟩
                  · rw [ht] at h1; cases h1
                  · rw [ht] at h1; cases h1
                  · exact h1
                  · rw [ht] at h1; cases h1
                  · rw [ht] at h1; cases h1
                rw [ht] at h3
                exact Leftover.later (i := 1) (key (n + 1) _ _ h3 _ _ (match_stray (by simpa using hv) (by rw [ht]; rfl))
                  ⟨_, sync_at (hin _ _ h3), rfl⟩)
        · cases h
    · intro ctx n m t a b x h hs ha
      rw [pMore] at h
      split at h
      · rename_i ht
        cases h
        refine .here ha ?_
        rw [rMore_succ, at_cons, if_neg (by rw [ht]; intro h; cases h), match_at (by rw [ht]; rfl)]
        rfl
      · split at h
        · rename_i ht
          cases e : pExpr f 0 b with
          | none => rw [e] at h; cases h
          | some y =>
            rw [e] at h
            simp only at h
            cases e2 : pMore f y.2 with
            | none => rw [e2] at h; cases h
            | some z =>
              rw [e2] at h; cases h
              have hsb := signs_cons hs (by rw [ht]; rfl)
              obtain ⟨k1, j, m1, r, rfl, h1, h2⟩ := hE 0 (.items :: ctx) n _ _ a b y e (by rw [ht]; rfl) hsb
                (items_after (ends_items e2)) ha
              obtain ⟨u, r', b', i, m2, hb', rfl, h3, h4⟩ := h1.items (n := n + j) (ends_items e2)
              rw [hb'] at e2
              have := hM ctx (n + j + i) m2 u r' b' z e2 (hb' ▸ ((signs_parse f).1 _ _ _ e hsb).2) h3
              rw [show j + (i + m2) = m2 + i + j by omega]
              refine Leftover.later (Leftover.later (this.mono ?_))
              intro s hs'
              have hin : inListKind (nextKind a) = true := by
                have := starts_list e (more_ends (hb' ▸ e2))
                cases b with
                | nil => obtain ⟨rfl, -⟩ := ha.end_; exact this
                | cons v b =>
                  by_cases hv : v.kind = .kIn
                  · have : inListKind v.kind = true := this
                    rw [hv] at this; cases this
                  · obtain ⟨a', rfl, -⟩ := ha.operand (by rw [ht]; rfl) hv
                    exact this
              rw [rMore_succ, at_cons, if_pos ht, at_take, sync_at hin]
              simp only
              rw [h2]
              simp only
              rw [h4]
              simp only
              rw [hs']
              rfl
        · cases h

/-- A text with slips is parsed to the tree of the text without, and one error is reported for each slip. -/
theorem rParse_slips {m : Nat} {a b : List Token} {t : Tree} (h : parseTokens b = some t) (hs : signs true b = true)
    (ha : Lax .eof m a b) : rParse a = some (t.up, m) := by
  obtain ⟨f, hf⟩ := parseTokens_iff.1 h
  obtain ⟨k, j, m', r, rfl, h1, h2⟩ := (slips_parse f).1 0 [.eof] 0 _ _ a b _ hf rfl hs rfl ha
  obtain ⟨rfl, rfl⟩ := h1.end_
  rw [rParse, rExpr_fuel h2]
  simp only [Nat.zero_add, Nat.add_zero]
  rfl

end BoolParser
