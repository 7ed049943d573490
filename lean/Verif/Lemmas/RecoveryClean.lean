import Verif.Lemmas.RecoveryAgree
/-!
# A run of the parser that reports nothing has read a text of the grammar
-/

namespace BoolParser

theorem lookAfter_kind : {ctx : List Frame} → {k : TK} → lookAfter ctx k = true →
    isBinKind k = true ∨ k = .eof ∨ k = .rparen ∨ k = .comma
  | [], k, h => .inr (.inl (eq_of_beq h))
  | .ops :: ctx, k, h => by
    have h' : (isBinKind k || lookAfter ctx k) = true := h
    rcases Bool.or_eq_true_iff.mp h' with h | h
    · exact .inl h
    · exact lookAfter_kind h
  | .eof :: _, k, h => .inr (.inl (eq_of_beq h))
  | .rparen :: _, k, h => .inr (.inr (.inl (eq_of_beq h)))
  | .items :: _, k, h => by
    have h' : (k == .comma || k == .rparen) = true := h
    rcases Bool.or_eq_true_iff.mp h' with h | h
    · exact .inr (.inr (.inr (eq_of_beq h)))
    · exact .inr (.inr (.inl (eq_of_beq h)))

/-- Nothing reported and not recovering. -/
def Clean (s : RState) : Prop := s.errors = 0 ∧ s.recovering = false

theorem clean_init (ts : List Token) : Clean (.init ts) := ⟨rfl, rfl⟩

theorem Clean.next {s s' : RState} (h : Clean s) (hl : s.Le s') (he : s'.errors = 0) : Clean s' := by
  refine ⟨he, ?_⟩
  cases hr : s'.recovering with
  | false => rfl
  | true =>
    rcases hl.2.2 hr with h' | h'
    · rw [h.2] at h'; cases h'
    · omega

theorem report_clean {s : RState} (h : Clean s) : s.report.errors = 1 := by
  unfold RState.report
  rw [h.2, h.1]; rfl

theorem failAt_clean {s : RState} (h : Clean s) (ctx : List Frame) (st : Nat) : (failAt ctx st s).2.errors ≠ 0 := by
  rw [failAt, recover_errors, report_clean h]; decide

theorem match_clean {want after : TK → Bool} {s : RState} {x : List Token × RState} (hc : Clean s)
    (h : matchTok want after s = some x) (he : x.2.errors = 0) : want s.la = true ∧ x.2 = s.take := by
  unfold matchTok at h
  split at h
  · rename_i hw; cases h; exact ⟨hw, rfl⟩
  · split at h
    · cases h
      have : s.report.errors = 0 := he
      rw [report_clean hc] at this; cases this
    · split at h
      · cases h
        have : s.report.errors = 0 := he
        rw [report_clean hc] at this; cases this
      · cases h

theorem sync_clean {want : TK → Bool} {s s' : RState} (hc : Clean s)
    (h : syncTok want s = some s') (he : s'.errors = 0) : want s.la = true ∧ s' = s := by
  unfold syncTok at h
  rw [hc.2] at h
  simp only [Bool.false_eq_true, if_false] at h
  split at h
  · rename_i hw; cases h; exact ⟨hw, rfl⟩
  · split at h
    · cases h
      have : s.report.errors = 0 := he
      rw [report_clean hc] at this; cases this
    · cases h

theorem la_cons {ts : List Token} {k : TK} (h : nextKind ts = k) (hk : k ≠ .eof) :
    ∃ t r, ts = t :: r ∧ t.kind = k := by
  cases ts with
  | nil => exact absurd h.symm hk
  | cons t r => exact ⟨t, r, rfl, h⟩

theorem want_cons {ts : List Token} {want : TK → Bool} (h : want (nextKind ts) = true) (hk : want .eof = false) :
    ∃ t r, ts = t :: r ∧ want t.kind = true := by
  cases ts with
  | nil => exact absurd (hk.symm.trans h) (by decide)
  | cons t r => exact ⟨t, r, rfl, h⟩

theorem rloop_cases {f p : Nat} {ctx : List Frame} {l : RTree} {s : RState} {x : RTree × RState}
    (h : rLoop f p ctx l s = some x) : x.2 = s ∨ isBinKind s.la = true := by
  cases f with
  | zero => cases h
  | succ f =>
    rw [rLoop_succ] at h
    cases hb : binTok s.la with
    | none => rw [hb] at h; cases h; exact .inl rfl
    | some b => exact .inr (by rw [isBinKind, hb]; rfl)

theorem fieldTail_after {f : Nat} {t : Token} {ts : List Token} {x : Tree × List Token}
    (hn : ¬ isNumKind (nextKind ts) = true) (h : pAfterField f t ts = some x) : fieldTail f t ts = some x := by
  match ts with
  | [] =>
    cases f with
    | zero => cases h
    | succ f => exact h
  | [lo] => simp only [fieldTail]; rw [if_neg (show ¬ isNumKind lo.kind = true from hn)]; exact h
  | [lo, to_] => simp only [fieldTail]; rw [if_neg (show ¬ isNumKind lo.kind = true from hn)]; exact h
  | lo :: to_ :: hi :: ts => simp only [fieldTail]; rw [if_neg (show ¬ isNumKind lo.kind = true from hn)]; exact h

/-- What a silent run of a part of the parser has read. -/
theorem parse_clean (f : Nat) :
    (∀ p ctx ts x, rExpr f p ctx (.init ts) = some x → x.2.errors = 0 → lookAfter ctx x.2.la = true →
      ∃ y, pExpr f p ts = some y ∧ x.2 = .init y.2) ∧
    (∀ ctx ts x, rPrimary f ctx (.init ts) = some x → x.2.2.errors = 0 → (x.2.1 = true → lookAfter (.ops :: ctx) x.2.2.la = true) →
      x.2.1 = true ∧ ∃ y, pPrimary f ts = some y ∧ x.2.2 = .init y.2) ∧
    (∀ ctx t ts x, rField f ctx t (.init ts) = some x → x.2.2.errors = 0 →
      x.2.1 = true ∧ ∃ y, pAfterField f t ts = some y ∧ x.2.2 = .init y.2) ∧
    (∀ p ctx l ts x, rLoop f p ctx l (.init ts) = some x → x.2.errors = 0 → lookAfter ctx x.2.la = true →
      ∀ l', ∃ y, pLoop f p l' ts = some y ∧ x.2 = .init y.2) ∧
    (∀ ctx ts x, rWordlist f ctx (.init ts) = some x → x.2.2.errors = 0 →
      ∃ y, pWordlist f ts = some y ∧ x.2.2 = .init y.2) ∧
    (∀ ctx ts x, rMore f ctx (.init ts) = some x → x.2.2.errors = 0 →
      ∃ y, pMore f ts = some y ∧ x.2.2 = .init y.2) := by
  induction f with
  | zero => refine ⟨?_, ?_, ?_, ?_, ?_, ?_⟩ <;> intros <;> simp_all [rExpr, rPrimary, rField, rLoop, rWordlist, rMore]
  | succ f ih =>
    obtain ⟨hE, hP, hF, hL, hW, hM⟩ := ih
    obtain ⟨lE, lP, lF, lL, lW, lM⟩ := recovery_le f
    refine ⟨?_, ?_, ?_, ?_, ?_, ?_⟩
    · intro p ctx ts x h he hl
      rw [rExpr_succ] at h
      cases e : rPrimary f ctx (.init ts) with
      | none => rw [e] at h; cases h
      | some y =>
        obtain ⟨t, b, s'⟩ := y
        rw [e] at h
        cases b with
        | false =>
          cases h
          exact absurd (hP ctx ts _ e he nofun).1 nofun
        | true =>
          have hle := lL _ _ _ _ _ h
          have he' : s'.errors = 0 := Nat.le_zero.mp (he ▸ hle.2.1)
          have hl' : lookAfter (.ops :: ctx) s'.la = true := by
            rcases rloop_cases h with h1 | h1
            · rw [← h1]; exact lookAfter_ops hl
            · show (isBinKind s'.la || lookAfter ctx s'.la) = true
              rw [h1]; rfl
          obtain ⟨-, y, e1, rfl⟩ := hP ctx ts _ e he' (fun _ => hl')
          obtain ⟨z, e2, e3⟩ := hL p ctx t y.2 x h he hl y.1
          exact ⟨z, by rw [pExpr, e1]; exact e2, e3⟩
    · intro ctx ts x h he hl
      cases hk : (RState.init ts).la with
      | lparen =>
        obtain ⟨t, r, rfl, ht⟩ := la_cons hk nofun
        rw [rPrimary_succ, hk] at h
        simp only [init_take] at h
        cases e : rExpr f 0 (.rparen :: ctx) (.init r) with
        | none => rw [e] at h; cases h
        | some y =>
          rw [e] at h
          simp only at h
          have l1 := lE _ _ _ _ e
          cases hm : matchTok (· == .rparen) (lookAfter (.ops :: ctx)) y.2 with
          | none =>
            rw [hm] at h
            cases h
            have he' : y.2.errors = 0 := Nat.le_zero.mp (he ▸ (failAt_le ctx 28 y.2).2.1)
            exact absurd he (failAt_clean ((clean_init r).next l1 he') _ _)
          | some z =>
            rw [hm] at h
            cases h
            have l2 := matchTok_le hm
            have he' : y.2.errors = 0 := Nat.le_zero.mp (he ▸ l2.2.1)
            obtain ⟨hw, hz⟩ := match_clean ((clean_init r).next l1 he') hm he
            obtain ⟨w, e1, e2⟩ := hE 0 (.rparen :: ctx) r y e he' hw
            rw [e2] at hw
            obtain ⟨u, r', hr, hu⟩ := want_cons (want := (· == .rparen)) hw rfl
            refine ⟨rfl, ((Tree.paren w.1, r')), ?_, ?_⟩
            · rw [pPrimary_cons, ht]
              simp only
              rw [e1]
              obtain ⟨w1, w2⟩ := w
              simp only at hr
              subst hr
              simp only
              rw [if_pos (eq_of_beq hu)]
            · show z.2 = _
              rw [hz, e2, hr, init_take]
      | kNot =>
        obtain ⟨t, r, rfl, ht⟩ := la_cons hk nofun
        rw [rPrimary_succ, hk] at h
        simp only [init_take] at h
        cases e : rExpr f 15 (.ops :: ctx) (.init r) with
        | none => rw [e] at h; cases h
        | some y =>
          rw [e] at h
          cases h
          obtain ⟨w, e1, e2⟩ := hE 15 (.ops :: ctx) r y e he (hl rfl)
          exact ⟨rfl, (.not_ w.1, w.2), by rw [pPrimary_cons, ht]; simp only; rw [e1], e2⟩
      | arith op =>
        cases op with
        | sub =>
          obtain ⟨t, r, rfl, ht⟩ := la_cons hk nofun
          rw [rPrimary_succ, hk] at h
          simp only [init_take] at h
          split at h
          · cases e : rExpr f 13 (.ops :: ctx) (.init r) with
            | none => rw [e] at h; cases h
            | some y =>
              rw [e] at h
              cases h
              obtain ⟨w, e1, e2⟩ := hE 13 (.ops :: ctx) r y e he (hl rfl)
              exact ⟨rfl, (.neg w.1, w.2), by rw [pPrimary_cons, ht]; simp only; rw [e1], e2⟩
          · cases h; exact absurd he (failAt_clean (clean_init _) _ _)
        | _ =>
          obtain ⟨t, r, rfl, ht⟩ := la_cons hk nofun
          rw [rPrimary_succ, hk] at h
          cases h
          exact ⟨rfl, (.types t true, t :: r), by rw [pPrimary_cons, ht]; rfl, rfl⟩
      | fn g =>
        obtain ⟨t, r, rfl, ht⟩ := la_cons hk nofun
        rw [rPrimary_succ, hk] at h
        simp only [init_take] at h
        cases e : rWordlist f (.ops :: ctx) (.init r) with
        | none => rw [e] at h; cases h
        | some y =>
          rw [e] at h
          cases h
          obtain ⟨w, e1, e2⟩ := hW (.ops :: ctx) r y e he
          exact ⟨rfl, (.func g w.1, w.2), by rw [pPrimary_cons, ht]; simp only; rw [e1], e2⟩
      | field =>
        obtain ⟨t, r, rfl, ht⟩ := la_cons hk nofun
        have h : rPrimary (f + 1) ctx (.at 0 (t :: r)) = some x := h
        rw [rPrimary_field _ _ _ ht] at h
        change (if isNumKind (nextKind r) then some (rRange ctx t (.init r)) else rField f ctx t (.init r)) = some x at h
        rw [pPrimary_field _ _ _ ht]
        split at h
        · rename_i hn
          obtain ⟨lo, r, rfl, hlo⟩ := want_cons hn rfl
          simp only [Option.some.injEq] at h
          subst h
          unfold rRange at he ⊢
          simp only [init_take] at he ⊢
          cases hm : matchTok (· == .kTo) isNumKind (.init r) with
          | none =>
            rw [hm] at he
            exact absurd he (failAt_clean (clean_init _) _ _)
          | some y =>
            rw [hm] at he
            simp only at he ⊢
            have l1 := rUpper_le ctx y.2
            have l0 := matchTok_le hm
            have he1 : y.2.errors = 0 := Nat.le_zero.mp (he ▸ l1.2.1)
            obtain ⟨hw, hz⟩ := match_clean (clean_init _) hm he1
            obtain ⟨to_, r, rfl, hto⟩ := want_cons (want := (· == .kTo)) hw rfl
            rw [init_take] at hz
            rw [hz] at he ⊢
            unfold rUpper at he ⊢
            cases hm2 : matchTok isNumKind (lookAfter (.ops :: ctx)) (.init r) with
            | none =>
              rw [hm2] at he
              exact absurd he (failAt_clean (clean_init _) _ _)
            | some z =>
              rw [hm2] at he
              obtain ⟨hw2, hz2⟩ := match_clean (clean_init _) hm2 he
              obtain ⟨hi, r, rfl, hhi⟩ := want_cons hw2 rfl
              rw [init_take] at hz2
              refine ⟨trivial, (.to_ t lo hi, r), ?_, hz2⟩
              simp only [fieldTail]
              rw [if_pos hlo, if_pos ⟨eq_of_beq hto, hhi⟩]
        · rename_i hn
          obtain ⟨hb, y, e1, e2⟩ := hF ctx t r x h he
          exact ⟨hb, y, fieldTail_after hn e1, e2⟩
      | eof =>
        rw [rPrimary_succ, hk] at h
        cases h
        cases ts with
        | nil => exact ⟨rfl, (.types eofTok true, []), rfl, rfl⟩
        | cons t r =>
          have ht : t.kind = .eof := hk
          exact ⟨rfl, (.types t true, t :: r), by rw [pPrimary_cons, ht]; rfl, rfl⟩
      | _ =>
        obtain ⟨t, r, rfl, ht⟩ := la_cons hk nofun
        rw [rPrimary_succ, hk] at h
        cases h
        first
          | exact ⟨rfl, (.types t false, r), by rw [pPrimary_cons, ht]; rfl, rfl⟩
          | exact ⟨rfl, (.types t true, t :: r), by rw [pPrimary_cons, ht]; rfl, rfl⟩
          | (have := lookAfter_kind (hl rfl)
             have hk' : (RState.init (t :: r)).la = _ := hk
             simp only [hk'] at this
             rcases this with h | h | h | h <;> cases h)
    · intro ctx t ts x h he
      cases hk : (RState.init ts).la with
      | kIn =>
        obtain ⟨u, r, rfl, hu⟩ := la_cons hk nofun
        rw [rField_succ, hk] at h
        simp only [init_take] at h
        cases e : rWordlist f (.ops :: ctx) (.init r) with
        | none => rw [e] at h; cases h
        | some y =>
          rw [e] at h
          cases h
          obtain ⟨w, e1, e2⟩ := hW (.ops :: ctx) r y e he
          exact ⟨rfl, (.in_ t false w.1, w.2), by rw [pAfterField_cons, hu]; simp only; rw [e1], e2⟩
      | cAll =>
        obtain ⟨u, r, rfl, hu⟩ := la_cons hk nofun
        rw [rField_succ, hk] at h
        simp only [init_take] at h
        cases e : rWordlist f (.ops :: ctx) (.init r) with
        | none => rw [e] at h; cases h
        | some y =>
          rw [e] at h
          cases h
          obtain ⟨w, e1, e2⟩ := hW (.ops :: ctx) r y e he
          exact ⟨rfl, (.array t .containsAll w.1, w.2), by rw [pAfterField_cons, hu]; simp only; rw [e1], e2⟩
      | cAny =>
        obtain ⟨u, r, rfl, hu⟩ := la_cons hk nofun
        rw [rField_succ, hk] at h
        simp only [init_take] at h
        cases e : rWordlist f (.ops :: ctx) (.init r) with
        | none => rw [e] at h; cases h
        | some y =>
          rw [e] at h
          cases h
          obtain ⟨w, e1, e2⟩ := hW (.ops :: ctx) r y e he
          exact ⟨rfl, (.array t .containsAny w.1, w.2), by rw [pAfterField_cons, hu]; simp only; rw [e1], e2⟩
      | kNot =>
        obtain ⟨u, r, rfl, hu⟩ := la_cons hk nofun
        rw [rField_succ, hk] at h
        simp only [init_take] at h
        cases hm : matchTok (· == .kIn) (· == .lparen) (.init r) with
        | none => rw [hm] at h; cases h; exact absurd he (failAt_clean (clean_init _) _ _)
        | some y =>
          rw [hm] at h
          simp only at h
          cases e : rWordlist f (.ops :: ctx) y.2 with
          | none => rw [e] at h; cases h
          | some z =>
            rw [e] at h
            cases h
            have l1 := lW _ _ _ e
            have he1 : y.2.errors = 0 := Nat.le_zero.mp (he ▸ l1.2.1)
            obtain ⟨hw, hz⟩ := match_clean (clean_init _) hm he1
            obtain ⟨v, r, rfl, hv⟩ := want_cons (want := (· == .kIn)) hw rfl
            rw [init_take] at hz
            rw [hz] at e
            obtain ⟨w, e1, e2⟩ := hW (.ops :: ctx) r z e he
            exact ⟨rfl, (.in_ t true w.1, w.2),
              by rw [pAfterField_cons, hu]; simp only; rw [if_pos (eq_of_beq hv), e1], e2⟩
      | eof =>
        rw [rField_succ, hk] at h
        cases h
        cases ts with
        | nil => exact ⟨rfl, (.types t false, []), rfl, rfl⟩
        | cons u r =>
          have hu : u.kind = .eof := hk
          exact ⟨rfl, (.types t false, u :: r), by rw [pAfterField_cons, hu], rfl⟩
      | _ =>
        obtain ⟨u, r, rfl, hu⟩ := la_cons hk nofun
        rw [rField_succ, hk] at h
        cases h
        exact ⟨rfl, (.types t false, u :: r), by rw [pAfterField_cons, hu], rfl⟩
    · intro p ctx l ts x h he hl l'
      rw [rLoop_succ] at h
      cases ts with
      | nil => cases h; exact ⟨(l', []), rfl, rfl⟩
      | cons t ts =>
        rw [nextKind_cons] at h
        rw [pLoop]
        cases hb : binTok t.kind with
        | none => rw [hb] at h; cases h; exact ⟨(l', t :: ts), rfl, rfl⟩
        | some b =>
          rw [hb] at h
          simp only [init_take] at h ⊢
          split at h
          · rename_i hp
            rw [if_pos hp]
            cases e : rExpr f (b.prec + 1) (.ops :: ctx) (.init ts) with
            | none => rw [e] at h; cases h
            | some y =>
              rw [e] at h
              simp only at h
              have l1 := lL _ _ _ _ _ h
              have he1 : y.2.errors = 0 := Nat.le_zero.mp (he ▸ l1.2.1)
              have hl' : lookAfter (.ops :: ctx) y.2.la = true := by
                rcases rloop_cases h with h1 | h1
                · rw [← h1]; exact lookAfter_ops hl
                · show (isBinKind y.2.la || lookAfter ctx y.2.la) = true
                  rw [h1]; rfl
              obtain ⟨w, e1, e2⟩ := hE _ _ ts y e he1 hl'
              rw [e2] at h
              obtain ⟨z, e3, e4⟩ := hL p ctx _ w.2 x h he hl (b.mk l' w.1)
              exact ⟨z, by rw [e1]; exact e3, e4⟩
          · rename_i hp
            rw [if_neg hp]
            cases h
            exact ⟨(l', t :: ts), rfl, rfl⟩
    · intro ctx ts x h he
      rw [rWordlist_succ] at h
      cases hm : matchTok (· == .lparen) inListKind (.init ts) with
      | none => rw [hm] at h; cases h; exact absurd he (failAt_clean (clean_init _) _ _)
      | some y =>
        rw [hm] at h
        simp only at h
        have l0 := matchTok_le hm
        cases hs : syncTok inListKind y.2 with
        | none =>
          rw [hs] at h
          cases h
          have he1 : y.2.errors = 0 := Nat.le_zero.mp (he ▸ (failAt_le ctx 96 y.2).2.1)
          exact absurd he (failAt_clean ((clean_init _).next l0 he1) _ _)
        | some s2 =>
          rw [hs] at h
          simp only at h
          have l1 := syncTok_le hs
          cases e : rExpr f 0 (.items :: ctx) s2 with
          | none => rw [e] at h; cases h
          | some z =>
            rw [e] at h
            simp only at h
            have l2 := lE _ _ _ _ e
            cases hs2 : syncTok (Frame.has .items) z.2 with
            | none =>
              rw [hs2] at h
              cases h
              have he1 : z.2.errors = 0 := Nat.le_zero.mp (he ▸ (failAt_le ctx 103 z.2).2.1)
              exact absurd he (failAt_clean ((clean_init _).next ((l0.trans l1).trans l2) he1) _ _)
            | some s4 =>
              rw [hs2] at h
              simp only at h
              have l3 := syncTok_le hs2
              cases e5 : rMore f ctx s4 with
              | none => rw [e5] at h; cases h
              | some w =>
                rw [e5] at h
                cases h
                have he : w.2.2.errors = 0 := he
                have l4 := lM _ _ w e5
                have h4 : s4.errors = 0 := Nat.le_zero.mp (he ▸ l4.2.1)
                have h3 : z.2.errors = 0 := Nat.le_zero.mp (h4 ▸ l3.2.1)
                have h2 : s2.errors = 0 := Nat.le_zero.mp (h3 ▸ l2.2.1)
                have h1 : y.2.errors = 0 := Nat.le_zero.mp (h2 ▸ l1.2.1)
                obtain ⟨hw, hz⟩ := match_clean (clean_init _) hm h1
                obtain ⟨t, r, rfl, ht⟩ := want_cons (want := (· == .lparen)) hw rfl
                rw [init_take] at hz
                rw [hz] at hs
                obtain ⟨-, rfl⟩ := sync_clean (clean_init _) hs h2
                obtain ⟨hit, rfl⟩ := sync_clean ((clean_init _).next l2 h3) hs2 h4
                obtain ⟨v, e6, e7⟩ := hE 0 (.items :: ctx) r z e h3 hit
                rw [e7] at e5
                obtain ⟨v2, e8, e9⟩ := hM ctx v.2 w e5 he
                refine ⟨(v.1 :: v2.1, v2.2), ?_, e9⟩
                rw [pWordlist, if_pos (eq_of_beq ht), e6]
                simp only
                rw [e8]
    · intro ctx ts x h he
      rw [rMore_succ] at h
      split at h
      · rename_i hk
        obtain ⟨t, r, rfl, ht⟩ := la_cons hk nofun
        rw [init_take] at h
        cases hs : syncTok inListKind (.init r) with
        | none => rw [hs] at h; cases h; exact absurd he (failAt_clean (clean_init _) _ _)
        | some s2 =>
          rw [hs] at h
          simp only at h
          have l1 := syncTok_le hs
          cases e : rExpr f 0 (.items :: ctx) s2 with
          | none => rw [e] at h; cases h
          | some z =>
            rw [e] at h
            simp only at h
            have l2 := lE _ _ _ _ e
            cases hs2 : syncTok (Frame.has .items) z.2 with
            | none =>
              rw [hs2] at h
              cases h
              have he1 : z.2.errors = 0 := Nat.le_zero.mp (he ▸ (failAt_le ctx 117 z.2).2.1)
              exact absurd he (failAt_clean ((clean_init _).next (l1.trans l2) he1) _ _)
            | some s4 =>
              rw [hs2] at h
              simp only at h
              have l3 := syncTok_le hs2
              cases e5 : rMore f ctx s4 with
              | none => rw [e5] at h; cases h
              | some w =>
                rw [e5] at h
                cases h
                have he : w.2.2.errors = 0 := he
                have l4 := lM _ _ w e5
                have h4 : s4.errors = 0 := Nat.le_zero.mp (he ▸ l4.2.1)
                have h3 : z.2.errors = 0 := Nat.le_zero.mp (h4 ▸ l3.2.1)
                have h2 : s2.errors = 0 := Nat.le_zero.mp (h3 ▸ l2.2.1)
                obtain ⟨-, rfl⟩ := sync_clean (clean_init _) hs h2
                obtain ⟨hit, rfl⟩ := sync_clean ((clean_init _).next l2 h3) hs2 h4
                obtain ⟨v, e6, e7⟩ := hE 0 (.items :: ctx) r z e h3 hit
                rw [e7] at e5
                obtain ⟨v2, e8, e9⟩ := hM ctx v.2 w e5 he
                refine ⟨(v.1 :: v2.1, v2.2), ?_, e9⟩
                rw [pMore, if_neg (by rw [ht]; nofun), if_pos ht, e6]
                simp only
                rw [e8]
      · rename_i hk
        cases hm : matchTok (· == .rparen) (lookAfter ctx) (.init ts) with
        | none => rw [hm] at h; cases h; exact absurd he (failAt_clean (clean_init _) _ _)
        | some y =>
          rw [hm] at h
          cases h
          obtain ⟨hw, hz⟩ := match_clean (clean_init _) hm he
          obtain ⟨t, r, rfl, ht⟩ := want_cons (want := (· == .rparen)) hw rfl
          rw [init_take] at hz
          exact ⟨([], r), by rw [pMore, if_pos (eq_of_beq ht)], hz⟩

end BoolParser
