import Verif.Lemmas.AnyMade
/-!
# Where a literal or a field can stand in the node of any text

The counterpart of `Verif/Lemmas/Placed.lean` for repaired parse trees.
-/

namespace BoolParser

variable {S : Stock} {E : Prop} {df : Option JStr} {b : Prop}

/-- The node of a context, and what is left of the stack. -/
def PairPlacedR (b : Prop) (t : RTree) (p : Node × NStack) : Prop :=
  (Placed b p.1 ∨ (p.1.isArithBase = true ∧ t.isTypes = true)) ∧ AllPlaced b p.2

theorem PairPlacedR.slot {t : RTree} {p : Node × NStack} (h : PairPlacedR b t p) : PSlot b p.1 := by
  intro h0
  rcases h.1 with h | h
  · exact h
  · rw [h.1] at h0; cases h0

mutual
theorem mapNodeR_placed (df : Option JStr) : (t : RTree) → ∀ st, AllPlaced b st → Yields (PairPlacedR b t) (mapNodeR df t st)
  | .types t e, st, hs => by
    simp only [mapNodeR]
    exact yields_bind (mapTypes_placed df t e) fun n hn => yields_ok ⟨.inr ⟨hn, rfl⟩, hs⟩
  | .func f sh items, st, hs => by
    simp only [mapNodeR]
    exact yields_bind (yields_any _) fun _ _ => yields_bind (mapNodesR_placed df items st hs) fun p hp =>
      yields_ok ⟨.inl .func, hp.2⟩
  | .in_ f neg sh items, st, hs => by
    simp only [mapNodeR]
    refine yields_bind (yields_any _) fun _ _ => yields_bind (mapNodesR_placed df items st hs) fun p hp =>
      yields_ok ⟨.inl ?_, hp.2⟩
    cases neg
    · exact .inn hp.1
    · exact .not_ (.inn hp.1)
  | .to_ f lo hi, st, hs => by
    simp only [mapNodeR]
    refine yields_bind (yields_any _) fun a ha => ?_
    split
    · exact yields_err _
    · exact yields_bind (yields_any _) fun b hb => yields_ok ⟨.inl .range, hs⟩
  | .cmp op l r, st, hs => by
    simp only [mapNodeR]
    refine yields_ite ?_ (yields_ite ?_ ?_)
    · exact yields_bind (mapNodeR_placed df l st hs) fun p hp => yields_bind (popN_placed hp.2) fun q hq =>
        yields_ok ⟨.inl (.cmp hp.slot (fun _ => hq.1)), hq.2⟩
    · exact yields_bind (mapNodeR_placed df r st hs) fun p hp => yields_bind (popN_placed hp.2) fun q hq =>
        yields_ok ⟨.inl (.cmp (fun _ => hq.1) hp.slot), hq.2⟩
    · exact yields_bind (mapNodeR_placed df r st hs) fun p hp => yields_bind (mapNodeR_placed df l _ hp.2) fun q hq =>
        yields_ok ⟨.inl (.cmp hq.slot hp.slot), hq.2⟩
  | .arith op l r, st, hs => by
    simp only [mapNodeR]
    refine yields_ite ?_ (yields_ite ?_ (yields_ite ?_ ?_))
    · exact yields_bind (mapNodeR_placed df l st hs) fun p hp => yields_bind (mapNodeR_placed df r _ hp.2) fun q hq =>
        yields_ok ⟨.inl .arith, hq.2⟩
    · exact yields_bind (mapNodeR_placed df l st hs) fun p hp => yields_bind (popN_placed hp.2) fun q hq =>
        yields_ok ⟨.inl .arith, hq.2⟩
    · exact yields_bind (mapNodeR_placed df r st hs) fun p hp => yields_bind (popN_placed hp.2) fun q hq =>
        yields_ok ⟨.inl .arith, hq.2⟩
    · match st, hs with
      | b :: a :: st, hs => exact yields_ok ⟨.inl .arith, allPlaced_tail (allPlaced_tail hs)⟩
      | [_], _ => exact yields_err _
      | [], _ => exact yields_err _
  | .paren _, _, _ => by simp only [mapNodeR]; exact yields_err _
  | .not_ _, _, _ => by simp only [mapNodeR]; exact yields_err _
  | .neg _, _, _ => by simp only [mapNodeR]; exact yields_err _
  | .bin _ _ _, _, _ => by simp only [mapNodeR]; exact yields_err _
  | .array _ _ _ _, _, _ => by simp only [mapNodeR]; exact yields_err _
  | .bad, _, _ => by simp only [mapNodeR]; exact yields_err _
theorem mapNodesR_placed (df : Option JStr) : (ts : List RTree) → ∀ st, AllPlaced b st →
    Yields (PairsPlaced b) (mapNodesR df ts st)
  | [], st, hs => by simp only [mapNodesR]; exact yields_ok ⟨by simp, hs⟩
  | t :: ts, st, hs => by
    simp only [mapNodesR]
    refine yields_bind (mapNodeR_placed df t st hs) fun p hp => yields_bind (mapNodesR_placed df ts _ hp.2) fun q hq =>
      yields_ok ⟨?_, hq.2⟩
    intro n hn
    rcases List.mem_cons.1 hn with rfl | hn
    · exact hp.slot
    · exact hq.1 n hn
end

theorem exitMappedR_placed (df : Option JStr) {t : RTree} (ht : t.isTypes = false) {s : LState} (hs : AllPlaced b s.stack) :
    Yields (fun s => AllPlaced b s.stack ∧ s.stack ≠ []) (exitMappedR df t s) := by
  unfold exitMappedR
  refine yields_bind (mapNodeR_placed df t _ hs) fun p hp => yields_ok ⟨allPlaced_cons ?_ hp.2, by simp⟩
  rcases hp.1 with h | ⟨_, h⟩
  · exact h
  · rw [ht] at h; cases h

theorem exitNegR_placed (df : Option JStr) (e : RTree) {s : LState} (hs : AllPlaced b s.stack) :
    Yields (fun s => AllPlaced b s.stack ∧ s.stack ≠ []) (exitNegR df e s) := by
  have leaf : Yields (fun s => AllPlaced b s.stack ∧ s.stack ≠ []) (match (generalizing := false) e with
    | .types t em => do
      let n ← mapTypes df t em
      pure { s with stack := .neg n :: s.stack }
    | _ => .error .classCast : Result LState) := by
    cases e with
    | types u em => exact yields_bind (yields_any _) fun n hn => yields_ok ⟨allPlaced_cons .neg hs, by simp⟩
    | _ => exact yields_err _
  unfold exitNegR
  simp only
  split
  · rename_i n st e'
    refine yields_ite (yields_ok ?_) leaf
    have hs' : AllPlaced b (n :: st) := by rw [← e']; exact hs
    exact ⟨allPlaced_cons .neg (allPlaced_tail hs'), by simp⟩
  · exact leaf

theorem exitArrayR_placed (df : Option JStr) (f : Token) (op : ArrOp) (sh : ListShape) {items : List RTree}
    {s : LState} (hs : AllPlaced b s.stack) :
    Yields (fun s => AllPlaced b s.stack ∧ s.stack ≠ []) (exitArrayR df f op sh items s) := by
  unfold exitArrayR
  exact yields_bind (yields_any _) fun _ _ => yields_bind (mapNodesR_placed df items _ hs) fun p hp =>
    yields_ok ⟨allPlaced_cons (.array hp.1) hp.2, by simp⟩

/-- An operand in any number of parentheses. -/
inductive LoneR : RTree → Prop
  | types (t e) : LoneR (.types t e)
  | paren {t} : LoneR t → LoneR (.paren t)

/-- The stack is fine, and empty only if nothing but a lone operand was walked, or nothing at all. -/
def AfterR (b : Prop) (t : RTree) (s : LState) (s' : LState) : Prop :=
  AllPlaced b s'.stack ∧ (s'.stack = [] → (LoneR t ∧ s.stack = []) ∨ s' = s)

theorem afterR_of {t : RTree} {s s' : LState} (h : AllPlaced b s'.stack ∧ s'.stack ≠ []) : AfterR b t s s' :=
  ⟨h.1, fun e => absurd e h.2⟩

mutual
theorem walkR_placed (df : Option JStr) : (t : RTree) → OverR S E t → ∀ s, AllPlaced (S.kind .kNot) s.stack →
    Yields (AfterR (S.kind .kNot) t s) (walkR df t s)
  | .paren t, h, s, hs => by
    rw [OverR] at h
    simp only [walkR]
    refine yields_imp (walkR_placed df t h s hs) fun s' h' => ⟨h'.1, fun e => ?_⟩
    rcases h'.2 e with h | h
    · exact .inl ⟨.paren h.1, h.2⟩
    · exact .inr h
  | .not_ t, h, s, hs => by
    rw [OverR] at h
    simp only [walkR]
    exact yields_bind (walkR_placed df t h.2 s hs) fun s' hs' =>
      yields_imp (exitNot_placed h.1 hs'.1) fun _ => afterR_of
  | .cmp op l r, h, s, hs => by
    rw [OverR] at h
    simp only [walkR]
    exact yields_bind (walkR_placed df l h.2.1 s hs) fun s1 h1 =>
      yields_bind (walkR_placed df r h.2.2 s1 h1.1) fun s2 h2 =>
      yields_imp (exitMappedR_placed df rfl h2.1) fun _ => afterR_of
  | .neg t, h, s, hs => by
    rw [OverR] at h
    simp only [walkR]
    exact yields_bind (walkR_placed df t h.2 s hs) fun s' hs' =>
      yields_imp (exitNegR_placed df t hs'.1) fun _ => afterR_of
  | .arith op l r, h, s, hs => by
    rw [OverR] at h
    simp only [walkR]
    exact yields_bind (walkR_placed df l h.2.1 s hs) fun s1 h1 =>
      yields_bind (walkR_placed df r h.2.2 s1 h1.1) fun s2 h2 =>
      yields_imp (exitMappedR_placed df rfl h2.1) fun _ => afterR_of
  | .func f sh items, h, s, hs => by
    rw [OverR] at h
    simp only [walkR]
    exact yields_bind (walkAllR_placed df items h.2.2 s hs) fun s1 h1 =>
      yields_imp (exitMappedR_placed df rfl h1) fun _ => afterR_of
  | .bin c l r, h, s, hs => by
    rw [OverR] at h
    simp only [walkR]
    exact yields_bind (walkR_placed df l h.2.1 s hs) fun s1 h1 =>
      yields_bind (walkR_placed df r h.2.2 s1 h1.1) fun s2 h2 =>
      yields_imp (exitBin_placed c h2.1) fun _ => afterR_of
  | .types t e, _, s, hs => by simp only [walkR]; exact yields_ok ⟨hs, fun e => .inl ⟨.types _ _, e⟩⟩
  | .to_ f lo hi, h, s, hs => by
    simp only [walkR]; exact yields_imp (exitMappedR_placed df rfl hs) fun _ => afterR_of
  | .in_ f neg sh items, h, s, hs => by
    rw [OverR] at h
    simp only [walkR]
    exact yields_bind (walkAllR_placed df items h.2.2.2 s hs) fun s1 h1 =>
      yields_imp (exitMappedR_placed df rfl h1) fun _ => afterR_of
  | .array f op sh items, h, s, hs => by
    rw [OverR] at h
    simp only [walkR]
    exact yields_bind (walkAllR_placed df items h.2.2 s hs) fun s1 h1 =>
      yields_imp (exitArrayR_placed df f op sh h1) fun _ => afterR_of
  | .bad, _, s, hs => by simp only [walkR]; exact yields_ok ⟨hs, fun _ => .inr rfl⟩
theorem walkAllR_placed (df : Option JStr) : (ts : List RTree) → OverRs S E ts → ∀ s,
    AllPlaced (S.kind .kNot) s.stack → Yields (fun s => AllPlaced (S.kind .kNot) s.stack) (walkAllR df ts s)
  | [], _, s, hs => by simp only [walkAllR]; exact yields_ok hs
  | t :: ts, h, s, hs => by
    rw [OverRs] at h
    simp only [walkAllR]
    exact yields_bind (walkR_placed df t h.1 s hs) fun s1 h1 => walkAllR_placed df ts h.2 s1 h1.1
end

/-- The node of a whole expression. -/
def TopPlacedR (b : Prop) (t : RTree) (n : Node) : Prop :=
  Placed b n ∨ (LoneR t ∧ ((∃ v, n = .unary .string v) ∨ ∃ f, n = .field (some f)))

theorem listenR_placed (df : Option JStr) {t : RTree} (h : OverR S E t) :
    Yields (TopPlacedR (S.kind .kNot) t) (listenR df t) := by
  unfold listenR
  refine yields_bind (walkR_placed df t h _ (by intro n h; cases h)) fun s hs => ?_
  unfold exitParse
  split
  · rename_i n st e
    exact yields_ok (.inl (hs.1 n (by rw [e]; simp)))
  · rename_i e
    split
    · rename_i u hu
      have hl : LoneR t := by
        rcases hs.2 e with h | h
        · exact h.1
        · rw [h] at hu; cases hu
      refine yields_ite (yields_ite (yields_ok (.inr ⟨hl, .inr ⟨_, rfl⟩⟩))
        (yields_bind (yields_any _) fun v hv => yields_ok (.inr ⟨hl, .inl ⟨_, rfl⟩⟩))) (yields_err _)
    · exact yields_err _

/-! ### The text of a lone operand -/

/-- The tokens begin with one operand, or a missing one, in parentheses, and no operator follows; `e` is left, or not
all parentheses are closed. -/
def LoneToks (ts e : List Token) : Prop :=
  ∃ ls xs rs rest, ts = ls ++ xs ++ rs ++ rest ∧ (∀ t ∈ ls, t.kind = .lparen) ∧ (∀ t ∈ rs, t.kind = .rparen) ∧
    ((∃ x, xs = [x] ∧ (isLitKind x.kind = true ∨ x.kind = .field)) ∨
      (xs = [] ∧ (rs = [] → ∀ t, rest.head? = some t → t.kind.begins = false))) ∧
    (∀ t, rest.head? = some t → isBinKind t.kind = false) ∧
    ((rs.length = ls.length ∧ e = rest) ∨ (rs.length < ls.length ∧ ∀ t, rest.head? = some t → t.kind ≠ .rparen))

theorem rLoop_cases : (f p : Nat) → (ctx : List Frame) → (l : RTree) → (s : RState) → (x : RTree × RState) →
    rLoop f p ctx l s = some x →
    (x = (l, s) ∧ (binTok s.la = none ∨ ∃ b, binTok s.la = some b ∧ b.prec < p)) ∨ ∃ b l' r, x.1 = BinTok.mkR b l' r
  | 0, _, _, _, _, _, h => by simp [rLoop] at h
  | f + 1, p, ctx, l, s, x, h => by
    rw [rLoop_succ] at h
    cases hb : binTok s.la with
    | none => rw [hb] at h; cases h; exact .inl ⟨rfl, .inl rfl⟩
    | some b =>
      rw [hb] at h
      simp only at h
      split at h
      · cases e : rExpr f (b.prec + 1) (.ops :: ctx) s.take with
        | none => rw [e] at h; cases h
        | some y =>
          rw [e] at h
          rcases rLoop_cases f p ctx _ _ _ h with h | h
          · rw [h.1]; exact .inr ⟨b, l, y.1, rfl⟩
          · exact .inr h
      · rename_i hp
        cases h; exact .inl ⟨rfl, .inr ⟨b, rfl, by omega⟩⟩

theorem mkR_not_lone {b : BinTok} {l r : RTree} (h : LoneR (b.mkR l r)) : False := by
  cases b <;> cases h

theorem nobin_head {s : RState} (h : binTok s.la = none) : ∀ t, s.toks.head? = some t → isBinKind t.kind = false := by
  intro t ht
  unfold RState.la RState.head at h
  cases e : s.toks with
  | nil => rw [e] at ht; cases ht
  | cons u us =>
    rw [e] at ht h
    cases ht
    simp [isBinKind, h]

theorem prec_pos (b : BinTok) : ¬ b.prec < 0 := by omega

theorem take_toks {s : RState} {r : List Token} {t : Token} (e : s.toks = t :: r) : s.take.toks = r := by
  show s.toks.tail = r
  rw [e]; rfl

/-- The tokens of a lone operand, as far as the first part of `expression` reads them. -/
theorem lone_primary : (f : Nat) → (ctx : List Frame) → (s : RState) → (x : RTree × Bool × RState) →
    rPrimary f ctx s = some x → ∀ {t e}, x.1 = .types t e → x.2.1 = true ∧
      ((∃ y, s.toks = y :: x.2.2.toks ∧ (isLitKind y.kind = true ∨ y.kind = .field)) ∨
        (x.2.2.toks = s.toks ∧ s.la.begins = false))
  | 0, _, _, _, h => by simp [rPrimary] at h
  | f + 1, ctx, s, x, h => by
    intro hx
    rw [rPrimary_succ] at h
    cases hk : s.la with
    | lparen =>
      rw [hk] at h
      simp only at h
      cases e : rExpr f 0 (.rparen :: ctx) s.take with
      | none => rw [e] at h; cases h
      | some y =>
        rw [e] at h
        simp only at h
        cases hm : matchTok (· == .rparen) (lookAfter (.ops :: ctx)) y.2 with
        | none => rw [hm] at h; cases h; cases hx
        | some z => rw [hm] at h; cases h; cases hx
    | kNot =>
      rw [hk] at h
      simp only at h
      cases e : rExpr f 15 (.ops :: ctx) s.take with
      | none => rw [e] at h; cases h
      | some y => rw [e] at h; cases h; cases hx
    | arith op =>
      rw [hk] at h
      cases op with
      | sub =>
        simp only at h
        split at h
        · cases e : rExpr f 13 (.ops :: ctx) s.take with
          | none => rw [e] at h; cases h
          | some y => rw [e] at h; cases h; cases hx
        · cases h; cases hx
      | _ => cases h; exact ⟨rfl, .inr ⟨rfl, rfl⟩⟩
    | fn g =>
      rw [hk] at h
      simp only at h
      cases e : rWordlist f (.ops :: ctx) s.take with
      | none => rw [e] at h; cases h
      | some y => rw [e] at h; cases h; cases hx
    | field =>
      obtain ⟨r, e1, e2⟩ := head_cons hk (by decide)
      rw [hk] at h
      simp only at h
      split at h
      · cases h
        unfold rRange at hx
        split at hx <;> cases hx
      · cases f with
        | zero => simp [rField] at h
        | succ f =>
          rw [rField_succ] at h
          cases hk2 : s.take.la with
          | kNot =>
            rw [hk2] at h
            simp only at h
            cases hm : matchTok (· == .kIn) (· == .lparen) s.take.take with
            | none => rw [hm] at h; cases h; cases hx
            | some y =>
              rw [hm] at h
              simp only at h
              cases e : rWordlist f (.ops :: ctx) y.2 with
              | none => rw [e] at h; cases h
              | some z => rw [e] at h; cases h; cases hx
          | kIn | cAll | cAny =>
            rw [hk2] at h
            simp only at h
            cases e : rWordlist f (.ops :: ctx) s.take.take with
            | none => rw [e] at h; cases h
            | some y => rw [e] at h; cases h; cases hx
          | _ =>
            rw [hk2] at h; cases h
            exact ⟨rfl, .inl ⟨s.head, by rw [take_toks e1]; exact e1, .inr e2⟩⟩
    | integer | decimal | version | kTrue | kFalse | word | date | datetime =>
      obtain ⟨r, e1, e2⟩ := head_cons hk (by decide)
      rw [hk] at h; cases h
      exact ⟨rfl, .inl ⟨s.head, by rw [take_toks e1]; exact e1, .inl (by rw [e2]; rfl)⟩⟩
    | comma | kIn | kTo | kAnd | kOr | cAll | cAny | cmp _ | rparen | eof =>
      rw [hk] at h; cases h
      exact ⟨rfl, .inr ⟨rfl, rfl⟩⟩

/-- A parenthesised tree. -/
theorem paren_primary : (f : Nat) → (ctx : List Frame) → (s : RState) → (x : RTree × Bool × RState) →
    rPrimary f ctx s = some x → ∀ {t}, x.1 = .paren t → s.la = .lparen ∧ ∃ s1,
      rExpr (f - 1) 0 (.rparen :: ctx) s.take = some (t, s1) ∧
      ((s1.la = .rparen ∧ x.2.1 = true ∧ x.2.2.toks = s1.toks.tail) ∨ s1.la ≠ .rparen)
  | 0, _, _, _, h => by simp [rPrimary] at h
  | f + 1, ctx, s, x, h => by
    intro hx
    rw [rPrimary_succ] at h
    cases hk : s.la with
    | lparen =>
      rw [hk] at h
      simp only at h
      cases e : rExpr f 0 (.rparen :: ctx) s.take with
      | none => rw [e] at h; cases h
      | some y =>
        rw [e] at h
        simp only at h
        cases hm : matchTok (· == .rparen) (lookAfter (.ops :: ctx)) y.2 with
        | none =>
          rw [hm] at h; cases h; cases hx
          refine ⟨rfl, y.2, e, .inr ?_⟩
          intro hl
          unfold matchTok at hm
          rw [if_pos (by rw [hl]; rfl)] at hm
          cases hm
        | some z =>
          rw [hm] at h; cases h; cases hx
          refine ⟨rfl, y.2, e, ?_⟩
          by_cases hl : y.2.la = .rparen
          · left
            refine ⟨hl, rfl, ?_⟩
            unfold matchTok at hm
            rw [if_pos (by rw [hl]; rfl)] at hm
            cases hm
            rfl
          · exact .inr hl
    | kNot =>
      rw [hk] at h
      simp only at h
      cases e : rExpr f 15 (.ops :: ctx) s.take with
      | none => rw [e] at h; cases h
      | some y => rw [e] at h; cases h; cases hx
    | arith op =>
      rw [hk] at h
      cases op with
      | sub =>
        simp only at h
        split at h
        · cases e : rExpr f 13 (.ops :: ctx) s.take with
          | none => rw [e] at h; cases h
          | some y => rw [e] at h; cases h; cases hx
        · cases h; cases hx
      | _ => cases h; cases hx
    | fn g =>
      rw [hk] at h
      simp only at h
      cases e : rWordlist f (.ops :: ctx) s.take with
      | none => rw [e] at h; cases h
      | some y => rw [e] at h; cases h; cases hx
    | field =>
      rw [hk] at h
      simp only at h
      split at h
      · cases h
        unfold rRange at hx
        split at hx <;> cases hx
      · cases f with
        | zero => simp [rField] at h
        | succ f =>
          rw [rField_succ] at h
          cases hk2 : s.take.la with
          | kNot =>
            rw [hk2] at h
            simp only at h
            cases hm : matchTok (· == .kIn) (· == .lparen) s.take.take with
            | none => rw [hm] at h; cases h; cases hx
            | some y =>
              rw [hm] at h
              simp only at h
              cases e : rWordlist f (.ops :: ctx) y.2 with
              | none => rw [e] at h; cases h
              | some z => rw [e] at h; cases h; cases hx
          | kIn | cAll | cAny =>
            rw [hk2] at h
            simp only at h
            cases e : rWordlist f (.ops :: ctx) s.take.take with
            | none => rw [e] at h; cases h
            | some y => rw [e] at h; cases h; cases hx
          | _ => rw [hk2] at h; cases h; cases hx
    | _ => rw [hk] at h; cases h; cases hx

theorem lone_toks {t : RTree} (hl : LoneR t) : ∀ f ctx s s', rExpr f 0 ctx s = some (t, s') → LoneToks s.toks s'.toks := by
  induction hl with
  | types u em =>
    intro f ctx s s' h
    cases f with
    | zero => simp [rExpr] at h
    | succ f =>
      rw [rExpr_succ] at h
      cases e : rPrimary f ctx s with
      | none => rw [e] at h; cases h
      | some y =>
        obtain ⟨t0, b, s1⟩ := y
        rw [e] at h
        cases b with
        | false =>
          cases h
          exact absurd (lone_primary _ _ _ _ e rfl).1 (by simp)
        | true =>
          simp only at h
          rcases rLoop_cases _ _ _ _ _ _ h with ⟨h1, h2⟩ | ⟨b, l, r, h1⟩
          · cases h1
            have hb : binTok s'.la = none := by
              rcases h2 with h2 | ⟨b, _, h2⟩
              · exact h2
              · exact absurd h2 (prec_pos b)
            rcases (lone_primary _ _ _ _ e rfl).2 with ⟨y, h3, h4⟩ | ⟨h3, h4⟩
            · exact ⟨[], [y], [], s'.toks, by simpa using h3, by simp, by simp, .inl ⟨y, rfl, h4⟩, nobin_head hb, .inl ⟨rfl, rfl⟩⟩
            · simp only at h3
              refine ⟨[], [], [], s'.toks, by simpa using h3.symm, by simp, by simp, .inr ⟨rfl, fun _ t ht => ?_⟩,
                nobin_head hb, .inl ⟨rfl, rfl⟩⟩
              rw [h3] at ht
              unfold RState.la RState.head at h4
              cases e : s.toks with
              | nil => rw [e] at ht; cases ht
              | cons v vs => rw [e] at ht h4; cases ht; exact h4
          · have : LoneR (BinTok.mkR b l r) := by rw [← h1]; exact .types _ _
            exact (mkR_not_lone this).elim
  | @paren t hl ih =>
    intro f ctx s s' h
    cases f with
    | zero => simp [rExpr] at h
    | succ f =>
      rw [rExpr_succ] at h
      cases e : rPrimary f ctx s with
      | none => rw [e] at h; cases h
      | some y =>
        obtain ⟨t0, b, s1⟩ := y
        rw [e] at h
        have fin : t0 = .paren t → (s1 = s' ∧ (b = true → binTok s'.la = none)) ∨ False → LoneToks s.toks s'.toks := by
          rintro rfl (⟨rfl, hb⟩ | h)
          swap
          · cases h
          obtain ⟨hla, s2, h1, h2⟩ := paren_primary _ _ _ _ e rfl
          obtain ⟨r, e1, e2⟩ := head_cons hla (by decide)
          have h3 := ih _ _ _ _ h1
          rw [take_toks e1] at h3
          obtain ⟨ls, xs, rs, rest, g1, g2, g3, g4, g5, g6⟩ := h3
          have gl : ∀ t ∈ s.head :: ls, t.kind = .lparen := by
            intro t ht
            rcases List.mem_cons.1 ht with rfl | ht
            · exact e2
            · exact g2 t ht
          have gt : s.toks = (s.head :: ls) ++ xs ++ rs ++ rest := by rw [e1, g1]; simp
          rcases g6 with ⟨g6, g7⟩ | ⟨g6, g7⟩
          · rcases h2 with ⟨h4, h5, h6⟩ | h4
            · obtain ⟨r2, e3, e4⟩ := head_cons h4 (by decide)
              simp only at h5 h6
              rw [e3, List.tail_cons] at h6
              refine ⟨s.head :: ls, xs, rs ++ [s2.head], r2, ?_, gl, ?_, ?_, ?_, .inl ⟨by simp [g6], h6⟩⟩
              · rw [gt, ← g7, e3]; simp
              · intro t ht
                rcases List.mem_append.1 ht with ht | ht
                · exact g3 t ht
                · rw [List.mem_singleton.1 ht]; exact e4
              · rcases g4 with g4 | g4
                · exact .inl g4
                · exact .inr ⟨g4.1, by simp⟩
              · rw [← h6]; exact nobin_head (hb h5)
            · refine ⟨s.head :: ls, xs, rs, rest, gt, gl, g3, g4, g5, .inr ⟨by simp [g6], fun t ht hr => h4 ?_⟩⟩
              rw [← g7] at ht
              unfold RState.la RState.head
              cases e : s2.toks with
              | nil => rw [e] at ht; cases ht
              | cons v vs => rw [e] at ht; cases ht; exact hr
          · exact ⟨s.head :: ls, xs, rs, rest, gt, gl, g3, g4, g5, .inr ⟨by simp; omega, g7⟩⟩
        cases b with
        | false => cases h; exact fin rfl (.inl ⟨rfl, nofun⟩)
        | true =>
          simp only at h
          rcases rLoop_cases _ _ _ _ _ _ h with ⟨h1, h2⟩ | ⟨b, l, r, h1⟩
          · cases h1
            refine fin rfl (.inl ⟨rfl, fun _ => ?_⟩)
            rcases h2 with h2 | ⟨b, _, h2⟩
            · exact h2
            · exact absurd h2 (prec_pos b)
          · have : LoneR (BinTok.mkR b l r) := by rw [← h1]; exact .paren hl
            exact (mkR_not_lone this).elim

end BoolParser
