import Verif.Model.Recovery
import Verif.Lemmas.Local
/-!
# The parser on any token stream: it ends, and it agrees with the grammar
-/

namespace BoolParser

/-! ## The state only moves forward -/

/-- `s'` is reached from `s`: no token was added, no report withdrawn, and recovery mode came with a report. -/
def RState.Le (s s' : RState) : Prop :=
  s'.toks.length ≤ s.toks.length ∧ s.errors ≤ s'.errors ∧
    (s'.recovering = true → s.recovering = true ∨ s.errors < s'.errors)

theorem RState.Le.refl (s : RState) : s.Le s := ⟨Nat.le_refl _, Nat.le_refl _, .inl⟩

theorem RState.Le.trans {a b c : RState} (h : a.Le b) (h' : b.Le c) : a.Le c := by
  refine ⟨Nat.le_trans h'.1 h.1, Nat.le_trans h.2.1 h'.2.1, fun hc => ?_⟩
  rcases h'.2.2 hc with hb | hb
  · rcases h.2.2 hb with ha | ha
    · exact .inl ha
    · exact .inr (Nat.lt_of_lt_of_le ha h'.2.1)
  · exact .inr (Nat.lt_of_le_of_lt h.2.1 hb)

theorem take_le (s : RState) : s.Le s.take := by
  refine ⟨?_, Nat.le_refl _, nofun⟩
  show s.toks.tail.length ≤ _
  simp

theorem report_toks (s : RState) : s.report.toks = s.toks := by
  unfold RState.report; split <;> rfl

theorem report_le (s : RState) : s.Le s.report := by
  refine ⟨by rw [report_toks], ?_⟩
  unfold RState.report; split
  · exact ⟨Nat.le_refl _, .inl⟩
  · exact ⟨Nat.le_succ _, fun _ => .inr (Nat.lt_succ_self _)⟩

theorem consume_le (s : RState) : s.Le s.consume := by
  refine ⟨?_, Nat.le_refl _, .inl⟩
  show s.toks.tail.length ≤ _
  simp

theorem skip_len (p : TK → Bool) (ts : List Token) : (skipUntil p ts).2.length ≤ ts.length := by
  induction ts with
  | nil => exact Nat.le_refl _
  | cons t ts ih =>
    rw [skipUntil]
    split
    · exact Nat.le_refl _
    · exact Nat.le_succ_of_le ih

theorem recover_le (ctx : List Frame) (st : Nat) (s : RState) : s.Le (recover ctx st s).2 := by
  unfold recover
  by_cases h : s.lastIndex = some s.toks.length ∧ st ∈ s.lastStates
  · simp only [if_pos h]
    exact ⟨Nat.le_trans (skip_len _ _) (consume_le s).1, (consume_le s).2⟩
  · simp only [if_neg h]
    exact ⟨skip_len _ _, Nat.le_refl _, .inl⟩

theorem failAt_le (ctx : List Frame) (st : Nat) (s : RState) : s.Le (failAt ctx st s).2 :=
  (report_le s).trans (recover_le ctx st _)

theorem recover_errors (ctx : List Frame) (st : Nat) (s : RState) : (recover ctx st s).2.errors = s.errors := by
  unfold recover
  by_cases h : s.lastIndex = some s.toks.length ∧ st ∈ s.lastStates
  · simp only [if_pos h]; rfl
  · simp only [if_neg h]

theorem matchTok_le {want after : TK → Bool} {s : RState} {x : List Token × RState} (h : matchTok want after s = some x) :
    s.Le x.2 := by
  unfold matchTok at h
  split at h
  · cases h; exact take_le s
  · split at h
    · cases h; exact (report_le s).trans ((consume_le _).trans (take_le _))
    · split at h
      · cases h; exact report_le s
      · cases h

theorem syncTok_le {want : TK → Bool} {s s' : RState} (h : syncTok want s = some s') : s.Le s' := by
  unfold syncTok at h
  split at h
  · cases h; exact .refl _
  · split at h
    · cases h; exact .refl _
    · split at h
      · cases h; exact (report_le s).trans (take_le _)
      · cases h

theorem rUpper_le (ctx : List Frame) (s : RState) : s.Le (rUpper ctx s).2 := by
  unfold rUpper
  split
  · exact matchTok_le ‹_›
  · exact failAt_le _ _ _

theorem rRange_le (ctx : List Frame) (t : Token) (s : RState) : s.Le (rRange ctx t s).2.2 := by
  unfold rRange
  split
  · exact (take_le s).trans ((matchTok_le ‹_›).trans (rUpper_le _ _))
  · exact (take_le s).trans (failAt_le _ _ _)

/-- A token is taken off. -/
theorem take_len {s : RState} (h : s.la ≠ .eof) : s.take.toks.length + 1 = s.toks.length := by
  show s.toks.tail.length + 1 = _
  unfold RState.la RState.head at h
  cases e : s.toks with
  | nil => rw [e] at h; exact absurd rfl h
  | cons t ts => rfl

/-! ## Unfolding -/

theorem rPrimary_succ (f : Nat) (ctx : List Frame) (s : RState) : rPrimary (f + 1) ctx s =
    match s.la with
    | .lparen =>
      match rExpr f 0 (.rparen :: ctx) s.take with
      | some (e, s1) =>
        match matchTok (· == .rparen) (lookAfter (.ops :: ctx)) s1 with
        | some (_, s2) => some (.paren e, true, s2)
        | none => some (.paren e, false, (failAt ctx 28 s1).2)
      | none => none
    | .kNot =>
      match rExpr f 15 (.ops :: ctx) s.take with
      | some (e, s1) => some (.not_ e, true, s1)
      | none => none
    | .arith .sub =>
      if minusAhead ctx .operand [] s.toks.tail then
        match rExpr f 13 (.ops :: ctx) s.take with
        | some (e, s1) => some (.neg e, true, s1)
        | none => none
      else some (.bad, false, (failAt ctx 53 s).2)
    | .fn g =>
      match rWordlist f (.ops :: ctx) s.take with
      | some (sh, es, s1) => some (.func g sh es, true, s1)
      | none => none
    | .field => if isNumKind s.take.la then some (rRange ctx s.head s.take) else rField f ctx s.head s.take
    | k =>
      if isLitKind k then some (.types s.head false, true, s.take)
      else some (.types s.head true, true, s) := by
  rw [rPrimary]; rfl

theorem rField_succ (f : Nat) (ctx : List Frame) (t : Token) (s : RState) : rField (f + 1) ctx t s =
    match s.la with
    | .kIn =>
      match rWordlist f (.ops :: ctx) s.take with
      | some (sh, es, s1) => some (.in_ t false sh es, true, s1)
      | none => none
    | .kNot =>
      match matchTok (· == .kIn) (· == .lparen) s.take with
      | some (_, s1) =>
        match rWordlist f (.ops :: ctx) s1 with
        | some (sh, es, s2) => some (.in_ t true sh es, true, s2)
        | none => none
      | none => some (.in_ t true .absent [], false, (failAt ctx 47 s.take).2)
    | .cAll =>
      match rWordlist f (.ops :: ctx) s.take with
      | some (sh, es, s1) => some (.array t .containsAll sh es, true, s1)
      | none => none
    | .cAny =>
      match rWordlist f (.ops :: ctx) s.take with
      | some (sh, es, s1) => some (.array t .containsAny sh es, true, s1)
      | none => none
    | _ => some (.types t false, true, s) := by
  rw [rField]; rfl

theorem rWordlist_succ (f : Nat) (ctx : List Frame) (s : RState) : rWordlist (f + 1) ctx s =
    match matchTok (· == .lparen) inListKind s with
    | none => some (if (failAt ctx 92 s).1.isEmpty then .childless else .failed, [], (failAt ctx 92 s).2)
    | some (_, s1) =>
      match syncTok inListKind s1 with
      | none => some (.failed, [], (failAt ctx 96 s1).2)
      | some s2 =>
        match rExpr f 0 (.items :: ctx) s2 with
        | none => none
        | some (e, s3) =>
          match syncTok (Frame.has .items) s3 with
          | none => some (.failed, [e], (failAt ctx 103 s3).2)
          | some s4 =>
            match rMore f ctx s4 with
            | none => none
            | some (sh, es, s5) => some (sh, e :: es, s5) := by
  rw [rWordlist]; rfl

theorem rMore_succ (f : Nat) (ctx : List Frame) (s : RState) : rMore (f + 1) ctx s =
    if s.la = .comma then
      match syncTok inListKind s.take with
      | none => some (.failed, [], (failAt ctx 110 s.take).2)
      | some s1 =>
        match rExpr f 0 (.items :: ctx) s1 with
        | none => none
        | some (e, s2) =>
          match syncTok (Frame.has .items) s2 with
          | none => some (.failed, [e], (failAt ctx 117 s2).2)
          | some s3 =>
            match rMore f ctx s3 with
            | none => none
            | some (sh, es, s4) => some (sh, e :: es, s4)
    else
      match matchTok (· == .rparen) (lookAfter ctx) s with
      | some (_, s1) => some (.complete, [], s1)
      | none => some (.failed, [], (failAt ctx 125 s).2) := by
  rw [rMore]; rfl

theorem rLoop_succ (f p : Nat) (ctx : List Frame) (l : RTree) (s : RState) : rLoop (f + 1) p ctx l s =
    match binTok s.la with
    | some b =>
      if p ≤ b.prec then
        match rExpr f (b.prec + 1) (.ops :: ctx) s.take with
        | some (r, s') => rLoop f p ctx (b.mkR l r) s'
        | none => none
      else some (l, s)
    | none => some (l, s) := by
  rw [rLoop]; rfl

theorem rExpr_succ (f p : Nat) (ctx : List Frame) (s : RState) : rExpr (f + 1) p ctx s =
    match rPrimary f ctx s with
    | some (t, true, s') => rLoop f p ctx t s'
    | some (t, false, s') => some (t, s')
    | none => none := by
  rw [rExpr]; rfl

/-! ## Every result is further on -/

theorem recovery_le (f : Nat) :
    (∀ p ctx s x, rExpr f p ctx s = some x → s.Le x.2) ∧
    (∀ ctx s x, rPrimary f ctx s = some x → s.Le x.2.2) ∧
    (∀ ctx t s x, rField f ctx t s = some x → s.Le x.2.2) ∧
    (∀ p ctx l s x, rLoop f p ctx l s = some x → s.Le x.2) ∧
    (∀ ctx s x, rWordlist f ctx s = some x → s.Le x.2.2) ∧
    (∀ ctx s x, rMore f ctx s = some x → s.Le x.2.2) := by
  induction f with
  | zero => refine ⟨?_, ?_, ?_, ?_, ?_, ?_⟩ <;> intros <;> simp_all [rExpr, rPrimary, rField, rLoop, rWordlist, rMore]
  | succ f ih =>
    obtain ⟨hE, hP, hF, hL, hW, hM⟩ := ih
    refine ⟨?_, ?_, ?_, ?_, ?_, ?_⟩
    · intro p ctx s x h
      rw [rExpr_succ] at h
      cases e : rPrimary f ctx s with
      | none => rw [e] at h; cases h
      | some y =>
        obtain ⟨t, b, s'⟩ := y
        have h1 := hP _ _ _ e
        rw [e] at h
        cases b with
        | true => exact h1.trans (hL _ _ _ _ _ h)
        | false => cases h; exact h1
    · intro ctx s x h
      rw [rPrimary_succ] at h
      cases hk : s.la with
      | lparen =>
        rw [hk] at h
        simp only at h
        cases e : rExpr f 0 (.rparen :: ctx) s.take with
        | none => rw [e] at h; cases h
        | some y =>
          have h1 := (take_le s).trans (hE _ _ _ _ e)
          rw [e] at h
          simp only at h
          cases hm : matchTok (· == .rparen) (lookAfter (.ops :: ctx)) y.2 with
          | none => rw [hm] at h; cases h; exact h1.trans (failAt_le _ _ _)
          | some z => rw [hm] at h; cases h; exact h1.trans (matchTok_le hm)
      | kNot =>
        rw [hk] at h
        simp only at h
        cases e : rExpr f 15 (.ops :: ctx) s.take with
        | none => rw [e] at h; cases h
        | some y => rw [e] at h; cases h; exact (take_le s).trans (hE _ _ _ _ e)
      | arith op =>
        rw [hk] at h
        cases op with
        | sub =>
          simp only at h
          split at h
          · cases e : rExpr f 13 (.ops :: ctx) s.take with
            | none => rw [e] at h; cases h
            | some y => rw [e] at h; cases h; exact (take_le s).trans (hE _ _ _ _ e)
          · cases h; exact failAt_le _ _ _
        | _ => cases h; exact .refl s
      | fn g =>
        rw [hk] at h
        simp only at h
        cases e : rWordlist f (.ops :: ctx) s.take with
        | none => rw [e] at h; cases h
        | some y => rw [e] at h; cases h; exact (take_le s).trans (hW _ _ _ e)
      | field =>
        rw [hk] at h
        simp only at h
        split at h
        · cases h; exact (take_le s).trans (rRange_le _ _ _)
        · exact (take_le s).trans (hF _ _ _ _ h)
      | _ => rw [hk] at h; cases h; first | exact take_le s | exact .refl s
    · intro ctx t s x h
      rw [rField_succ] at h
      cases hk : s.la with
      | kNot =>
        rw [hk] at h
        simp only at h
        cases hm : matchTok (· == .kIn) (· == .lparen) s.take with
        | none => rw [hm] at h; cases h; exact (take_le s).trans (failAt_le _ _ _)
        | some y =>
          rw [hm] at h
          simp only at h
          cases e : rWordlist f (.ops :: ctx) y.2 with
          | none => rw [e] at h; cases h
          | some z => rw [e] at h; cases h; exact (take_le s).trans ((matchTok_le hm).trans (hW _ _ _ e))
      | kIn =>
        rw [hk] at h
        simp only at h
        cases e : rWordlist f (.ops :: ctx) s.take with
        | none => rw [e] at h; cases h
        | some y => rw [e] at h; cases h; exact (take_le s).trans (hW _ _ _ e)
      | cAll =>
        rw [hk] at h
        simp only at h
        cases e : rWordlist f (.ops :: ctx) s.take with
        | none => rw [e] at h; cases h
        | some y => rw [e] at h; cases h; exact (take_le s).trans (hW _ _ _ e)
      | cAny =>
        rw [hk] at h
        simp only at h
        cases e : rWordlist f (.ops :: ctx) s.take with
        | none => rw [e] at h; cases h
        | some y => rw [e] at h; cases h; exact (take_le s).trans (hW _ _ _ e)
      | _ => rw [hk] at h; cases h; exact .refl s
    · intro p ctx l s x h
      rw [rLoop_succ] at h
      cases hb : binTok s.la with
      | none => rw [hb] at h; cases h; exact .refl s
      | some b =>
        rw [hb] at h
        simp only at h
        split at h
        · cases e : rExpr f (b.prec + 1) (.ops :: ctx) s.take with
          | none => rw [e] at h; cases h
          | some y => rw [e] at h; exact (take_le s).trans ((hE _ _ _ _ e).trans (hL _ _ _ _ _ h))
        · cases h; exact .refl s
    · intro ctx s x h
      rw [rWordlist_succ] at h
      cases hm : matchTok (· == .lparen) inListKind s with
      | none => rw [hm] at h; cases h; exact failAt_le _ _ _
      | some y =>
        have h0 := matchTok_le hm
        rw [hm] at h
        simp only at h
        cases hs : syncTok inListKind y.2 with
        | none => rw [hs] at h; cases h; exact h0.trans (failAt_le _ _ _)
        | some s2 =>
          rw [hs] at h
          simp only at h
          cases e : rExpr f 0 (.items :: ctx) s2 with
          | none => rw [e] at h; cases h
          | some z =>
            have h3 := (h0.trans (syncTok_le hs)).trans (hE _ _ _ _ e)
            rw [e] at h
            simp only at h
            cases hs2 : syncTok (Frame.has .items) z.2 with
            | none => rw [hs2] at h; cases h; exact h3.trans (failAt_le _ _ _)
            | some s4 =>
              rw [hs2] at h
              simp only at h
              cases e5 : rMore f ctx s4 with
              | none => rw [e5] at h; cases h
              | some w => rw [e5] at h; cases h; exact h3.trans ((syncTok_le hs2).trans (hM _ _ w e5 : s4.Le w.2.2))
    · intro ctx s x h
      rw [rMore_succ] at h
      split at h
      · cases hs : syncTok inListKind s.take with
        | none => rw [hs] at h; cases h; exact (take_le s).trans (failAt_le _ _ _)
        | some s2 =>
          rw [hs] at h
          simp only at h
          cases e : rExpr f 0 (.items :: ctx) s2 with
          | none => rw [e] at h; cases h
          | some z =>
            have h3 := ((take_le s).trans (syncTok_le hs)).trans (hE _ _ _ _ e)
            rw [e] at h
            simp only at h
            cases hs2 : syncTok (Frame.has .items) z.2 with
            | none => rw [hs2] at h; cases h; exact h3.trans (failAt_le _ _ _)
            | some s4 =>
              rw [hs2] at h
              simp only at h
              cases e5 : rMore f ctx s4 with
              | none => rw [e5] at h; cases h
              | some w => rw [e5] at h; cases h; exact h3.trans ((syncTok_le hs2).trans (hM _ _ w e5 : s4.Le w.2.2))
      · cases hm : matchTok (· == .rparen) (lookAfter ctx) s with
        | none => rw [hm] at h; cases h; exact failAt_le _ _ _
        | some y => rw [hm] at h; cases h; exact matchTok_le hm

/-! ## Enough fuel -/

/-- With enough fuel for the tokens left, a result comes out, further on. -/
theorem recovery_total (f : Nat) :
    (∀ p ctx s, 4 * s.toks.length + 4 ≤ f → ∃ t s', rExpr f p ctx s = some (t, s') ∧ s.Le s') ∧
    (∀ ctx s, 4 * s.toks.length + 3 ≤ f → ∃ t b s', rPrimary f ctx s = some (t, b, s') ∧ s.Le s') ∧
    (∀ ctx t s, 4 * s.toks.length + 4 ≤ f → ∃ e b s', rField f ctx t s = some (e, b, s') ∧ s.Le s') ∧
    (∀ p ctx l s, 4 * s.toks.length + 3 ≤ f → ∃ t s', rLoop f p ctx l s = some (t, s') ∧ s.Le s') ∧
    (∀ ctx s, 4 * s.toks.length + 5 ≤ f → ∃ sh es s', rWordlist f ctx s = some (sh, es, s') ∧ s.Le s') ∧
    (∀ ctx s, 4 * s.toks.length + 4 ≤ f → ∃ sh es s', rMore f ctx s = some (sh, es, s') ∧ s.Le s') := by
  induction f with
  | zero => refine ⟨?_, ?_, ?_, ?_, ?_, ?_⟩ <;> intros <;> omega
  | succ f ih =>
    obtain ⟨hE, hP, hF, hL, hW, hM⟩ := ih
    refine ⟨?_, ?_, ?_, ?_, ?_, ?_⟩
    · intro p ctx s h
      rw [rExpr_succ]
      obtain ⟨t, b, s', e, hs⟩ := hP ctx s (by omega)
      rw [e]
      cases b with
      | false => exact ⟨_, _, rfl, hs⟩
      | true =>
        have := hs.1
        obtain ⟨t2, s2, e2, h2⟩ := hL p ctx t s' (by omega)
        exact ⟨_, _, e2, hs.trans h2⟩
    · intro ctx s h
      rw [rPrimary_succ]
      have ht := take_len (s := s)
      cases hk : s.la with
      | lparen =>
        obtain ⟨e, s1, he, h1⟩ := hE 0 (.rparen :: ctx) s.take (by have := ht (by rw [hk]; nofun); omega)
        simp only [he]
        cases hm : matchTok (· == .rparen) (lookAfter (.ops :: ctx)) s1 with
        | none => exact ⟨_, _, _, rfl, (take_le s).trans (h1.trans (failAt_le _ _ _))⟩
        | some y => exact ⟨_, _, _, rfl, (take_le s).trans (h1.trans (matchTok_le hm))⟩
      | kNot =>
        obtain ⟨e, s1, he, h1⟩ := hE 15 (.ops :: ctx) s.take (by have := ht (by rw [hk]; nofun); omega)
        simp only [he]
        exact ⟨_, _, _, rfl, (take_le s).trans h1⟩
      | arith op =>
        cases op with
        | sub =>
          simp only
          split
          · obtain ⟨e, s1, he, h1⟩ := hE 13 (.ops :: ctx) s.take (by have := ht (by rw [hk]; nofun); omega)
            simp only [he]
            exact ⟨_, _, _, rfl, (take_le s).trans h1⟩
          · exact ⟨_, _, _, rfl, failAt_le _ _ _⟩
        | _ => exact ⟨_, _, _, rfl, .refl s⟩
      | fn g =>
        obtain ⟨sh, es, s1, he, h1⟩ := hW (.ops :: ctx) s.take (by have := ht (by rw [hk]; nofun); omega)
        simp only [he]
        exact ⟨_, _, _, rfl, (take_le s).trans h1⟩
      | field =>
        simp only
        split
        · exact ⟨_, _, _, rfl, (take_le s).trans (rRange_le _ _ _)⟩
        · obtain ⟨e, b, s1, he, h1⟩ := hF ctx s.head s.take (by have := ht (by rw [hk]; nofun); omega)
          exact ⟨_, _, _, he, (take_le s).trans h1⟩
      | _ => first | exact ⟨_, _, _, rfl, take_le s⟩ | exact ⟨_, _, _, rfl, .refl s⟩
    · intro ctx t s h
      rw [rField_succ]
      have ht := take_len (s := s)
      cases hk : s.la with
      | kIn =>
        obtain ⟨sh, es, s1, he, h1⟩ := hW (.ops :: ctx) s.take (by have := ht (by rw [hk]; nofun); omega)
        simp only [he]
        exact ⟨_, _, _, rfl, (take_le s).trans h1⟩
      | kNot =>
        simp only
        cases hm : matchTok (· == .kIn) (· == .lparen) s.take with
        | none => exact ⟨_, _, _, rfl, (take_le s).trans (failAt_le _ _ _)⟩
        | some y =>
          have h0 := matchTok_le hm
          obtain ⟨sh, es, s1, he, h1⟩ := hW (.ops :: ctx) y.2 (by have := ht (by rw [hk]; nofun); have := h0.1; omega)
          simp only [he]
          exact ⟨_, _, _, rfl, (take_le s).trans (h0.trans h1)⟩
      | cAll =>
        obtain ⟨sh, es, s1, he, h1⟩ := hW (.ops :: ctx) s.take (by have := ht (by rw [hk]; nofun); omega)
        simp only [he]
        exact ⟨_, _, _, rfl, (take_le s).trans h1⟩
      | cAny =>
        obtain ⟨sh, es, s1, he, h1⟩ := hW (.ops :: ctx) s.take (by have := ht (by rw [hk]; nofun); omega)
        simp only [he]
        exact ⟨_, _, _, rfl, (take_le s).trans h1⟩
      | _ => exact ⟨_, _, _, rfl, .refl s⟩
    · intro p ctx l s h
      rw [rLoop_succ]
      have ht := take_len (s := s)
      cases hb : binTok s.la with
      | none => exact ⟨_, _, rfl, .refl s⟩
      | some b =>
        simp only
        split
        · have hl := ht (by intro h0; rw [h0] at hb; cases hb)
          obtain ⟨e, s1, he, h1⟩ := hE (b.prec + 1) (.ops :: ctx) s.take (by omega)
          simp only [he]
          obtain ⟨t2, s2, e2, h2⟩ := hL p ctx (b.mkR l e) s1 (by have := h1.1; omega)
          exact ⟨_, _, e2, (take_le s).trans (h1.trans h2)⟩
        · exact ⟨_, _, rfl, .refl s⟩
    · intro ctx s h
      rw [rWordlist_succ]
      cases hm : matchTok (· == .lparen) inListKind s with
      | none => exact ⟨_, _, _, rfl, failAt_le _ _ _⟩
      | some y =>
        have h0 := matchTok_le hm
        simp only
        cases hs : syncTok inListKind y.2 with
        | none => exact ⟨_, _, _, rfl, h0.trans (failAt_le _ _ _)⟩
        | some s2 =>
          have h1 := h0.trans (syncTok_le hs)
          obtain ⟨e, s3, he, h3⟩ := hE 0 (.items :: ctx) s2 (by have := h1.1; omega)
          simp only [he]
          have h3 := h1.trans h3
          cases hs2 : syncTok (Frame.has .items) s3 with
          | none => exact ⟨_, _, _, rfl, h3.trans (failAt_le _ _ _)⟩
          | some s4 =>
            have h4 := h3.trans (syncTok_le hs2)
            obtain ⟨sh, es, s5, he5, h5⟩ := hM ctx s4 (by have := h4.1; omega)
            simp only [he5]
            exact ⟨_, _, _, rfl, h4.trans h5⟩
    · intro ctx s h
      rw [rMore_succ]
      have ht := take_len (s := s)
      split
      · rename_i hk
        have hl := ht (by rw [hk]; nofun)
        cases hs : syncTok inListKind s.take with
        | none => exact ⟨_, _, _, rfl, (take_le s).trans (failAt_le _ _ _)⟩
        | some s2 =>
          have h1 := (take_le s).trans (syncTok_le hs)
          have h1' := (syncTok_le hs).1
          obtain ⟨e, s3, he, h3⟩ := hE 0 (.items :: ctx) s2 (by omega)
          simp only [he]
          have h3' := h3.1
          have h3 := h1.trans h3
          cases hs2 : syncTok (Frame.has .items) s3 with
          | none => exact ⟨_, _, _, rfl, h3.trans (failAt_le _ _ _)⟩
          | some s4 =>
            have h4 := h3.trans (syncTok_le hs2)
            obtain ⟨sh, es, s5, he5, h5⟩ := hM ctx s4 (by have := (syncTok_le hs2).1; omega)
            simp only [he5]
            exact ⟨_, _, _, rfl, h4.trans h5⟩
      · cases hm : matchTok (· == .rparen) (lookAfter ctx) s with
        | none => exact ⟨_, _, _, rfl, failAt_le _ _ _⟩
        | some y => exact ⟨_, _, _, rfl, matchTok_le hm⟩

/-- The parser ends on every token stream. -/
theorem rParse_total (ts : List Token) : ∃ x, rParse ts = some x := by
  obtain ⟨t, s, e, -⟩ := (recovery_total (parseFuel ts)).1 0 [.eof] (.init ts) (Nat.le_refl _)
  unfold rParse
  rw [e]
  simp only
  split <;> exact ⟨_, rfl⟩

/-! ## More fuel does not matter -/

theorem recovery_mono (f : Nat) :
    (∀ p ctx s x, rExpr f p ctx s = some x → rExpr (f + 1) p ctx s = some x) ∧
    (∀ ctx s x, rPrimary f ctx s = some x → rPrimary (f + 1) ctx s = some x) ∧
    (∀ ctx t s x, rField f ctx t s = some x → rField (f + 1) ctx t s = some x) ∧
    (∀ p ctx l s x, rLoop f p ctx l s = some x → rLoop (f + 1) p ctx l s = some x) ∧
    (∀ ctx s x, rWordlist f ctx s = some x → rWordlist (f + 1) ctx s = some x) ∧
    (∀ ctx s x, rMore f ctx s = some x → rMore (f + 1) ctx s = some x) := by
  induction f with
  | zero => refine ⟨?_, ?_, ?_, ?_, ?_, ?_⟩ <;> intros <;> simp_all [rExpr, rPrimary, rField, rLoop, rWordlist, rMore]
  | succ f ih =>
    obtain ⟨hE, hP, hF, hL, hW, hM⟩ := ih
    refine ⟨?_, ?_, ?_, ?_, ?_, ?_⟩
    · intro p ctx s x h
      rw [rExpr_succ] at h ⊢
      cases e : rPrimary f ctx s with
      | none => rw [e] at h; cases h
      | some y =>
        obtain ⟨t, b, s'⟩ := y
        rw [hP _ _ _ e]
        rw [e] at h
        cases b with
        | true => exact hL _ _ _ _ _ h
        | false => exact h
    · intro ctx s x h
      rw [rPrimary_succ] at h ⊢
      cases hk : s.la with
      | lparen =>
        rw [hk] at h
        simp only at h ⊢
        cases e : rExpr f 0 (.rparen :: ctx) s.take with
        | none => rw [e] at h; cases h
        | some y => rw [hE _ _ _ _ e]; rw [e] at h; exact h
      | kNot =>
        rw [hk] at h
        simp only at h ⊢
        cases e : rExpr f 15 (.ops :: ctx) s.take with
        | none => rw [e] at h; cases h
        | some y => rw [hE _ _ _ _ e]; rw [e] at h; exact h
      | arith op =>
        rw [hk] at h
        cases op with
        | sub =>
          simp only at h ⊢
          split at h
          · rename_i hm
            rw [if_pos hm]
            cases e : rExpr f 13 (.ops :: ctx) s.take with
            | none => rw [e] at h; cases h
            | some y => rw [hE _ _ _ _ e]; rw [e] at h; exact h
          · rename_i hm
            rw [if_neg hm]; exact h
        | _ => exact h
      | fn g =>
        rw [hk] at h
        simp only at h ⊢
        cases e : rWordlist f (.ops :: ctx) s.take with
        | none => rw [e] at h; cases h
        | some y => rw [hW _ _ _ e]; rw [e] at h; exact h
      | field =>
        rw [hk] at h
        simp only at h ⊢
        split at h
        · rename_i hn
          rw [if_pos hn]; exact h
        · rename_i hn
          rw [if_neg hn]; exact hF _ _ _ _ h
      | _ => rw [hk] at h; exact h
    · intro ctx t s x h
      rw [rField_succ] at h ⊢
      cases hk : s.la with
      | kNot =>
        rw [hk] at h
        simp only at h ⊢
        cases hm : matchTok (· == .kIn) (· == .lparen) s.take with
        | none => rw [hm] at h; exact h
        | some y =>
          rw [hm] at h
          simp only at h ⊢
          cases e : rWordlist f (.ops :: ctx) y.2 with
          | none => rw [e] at h; cases h
          | some z => rw [hW _ _ _ e]; rw [e] at h; exact h
      | kIn =>
        rw [hk] at h
        simp only at h ⊢
        cases e : rWordlist f (.ops :: ctx) s.take with
        | none => rw [e] at h; cases h
        | some y => rw [hW _ _ _ e]; rw [e] at h; exact h
      | cAll =>
        rw [hk] at h
        simp only at h ⊢
        cases e : rWordlist f (.ops :: ctx) s.take with
        | none => rw [e] at h; cases h
        | some y => rw [hW _ _ _ e]; rw [e] at h; exact h
      | cAny =>
        rw [hk] at h
        simp only at h ⊢
        cases e : rWordlist f (.ops :: ctx) s.take with
        | none => rw [e] at h; cases h
        | some y => rw [hW _ _ _ e]; rw [e] at h; exact h
      | _ => rw [hk] at h; exact h
    · intro p ctx l s x h
      rw [rLoop_succ] at h ⊢
      cases hb : binTok s.la with
      | none => rw [hb] at h; exact h
      | some b =>
        rw [hb] at h
        simp only at h ⊢
        split at h
        · rename_i hp
          rw [if_pos hp]
          cases e : rExpr f (b.prec + 1) (.ops :: ctx) s.take with
          | none => rw [e] at h; cases h
          | some y => rw [hE _ _ _ _ e]; rw [e] at h; exact hL _ _ _ _ _ h
        · rename_i hp
          rw [if_neg hp]; exact h
    · intro ctx s x h
      rw [rWordlist_succ] at h ⊢
      cases hm : matchTok (· == .lparen) inListKind s with
      | none => rw [hm] at h; exact h
      | some y =>
        rw [hm] at h
        simp only at h ⊢
        cases hs : syncTok inListKind y.2 with
        | none => rw [hs] at h; exact h
        | some s2 =>
          rw [hs] at h
          simp only at h ⊢
          cases e : rExpr f 0 (.items :: ctx) s2 with
          | none => rw [e] at h; cases h
          | some z =>
            rw [hE _ _ _ _ e]
            rw [e] at h
            simp only at h ⊢
            cases hs2 : syncTok (Frame.has .items) z.2 with
            | none => rw [hs2] at h; exact h
            | some s4 =>
              rw [hs2] at h
              simp only at h ⊢
              cases e5 : rMore f ctx s4 with
              | none => rw [e5] at h; cases h
              | some w => rw [hM _ _ w e5]; rw [e5] at h; exact h
    · intro ctx s x h
      rw [rMore_succ] at h ⊢
      split at h
      · rename_i hc
        rw [if_pos hc]
        cases hs : syncTok inListKind s.take with
        | none => rw [hs] at h; exact h
        | some s2 =>
          rw [hs] at h
          simp only at h ⊢
          cases e : rExpr f 0 (.items :: ctx) s2 with
          | none => rw [e] at h; cases h
          | some z =>
            rw [hE _ _ _ _ e]
            rw [e] at h
            simp only at h ⊢
            cases hs2 : syncTok (Frame.has .items) z.2 with
            | none => rw [hs2] at h; exact h
            | some s4 =>
              rw [hs2] at h
              simp only at h ⊢
              cases e5 : rMore f ctx s4 with
              | none => rw [e5] at h; cases h
              | some w => rw [hM _ _ w e5]; rw [e5] at h; exact h
      · rename_i hc
        rw [if_neg hc]; exact h

theorem rExpr_mono {f g p : Nat} {ctx : List Frame} {s : RState} {x : RTree × RState} (h : f ≤ g)
    (e : rExpr f p ctx s = some x) : rExpr g p ctx s = some x := by
  induction h with
  | refl => exact e
  | step _ ih => exact (recovery_mono _).1 _ _ _ _ ih

/-- Whatever the fuel, a result is the result of the parser. -/
theorem rExpr_fuel {f : Nat} {ts : List Token} {x : RTree × RState} (e : rExpr f 0 [.eof] (.init ts) = some x) :
    rExpr (parseFuel ts) 0 [.eof] (.init ts) = some x := by
  obtain ⟨t, s, e', -⟩ := (recovery_total (parseFuel ts)).1 0 [.eof] (.init ts) (Nat.le_refl _)
  rcases Nat.le_total f (parseFuel ts) with h | h
  · exact rExpr_mono h e
  · rw [e', ← rExpr_mono h e', e]

end BoolParser
