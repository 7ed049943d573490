import Verif.Model.Verbatim
import Verif.Spec.Verbatim
import Verif.Lemmas.Yield
/-!
# The parser with texts: forgetting the texts, and where the texts come from (for C87, C102)
-/

namespace BoolParser
open Spec

/-! ## Forgetting the texts -/

theorem mkV_erase (b : BinTok) (o : JStr) (l r : VTree) : (b.mkV o l r).erase = b.mkR l.erase r.erase := by
  cases b <;> simp only [BinTok.mkV, BinTok.mkR, VTree.erase]

theorem vRange_erase (ctx : List Frame) (t : Token) (s : RState) :
    rRange ctx t s = ((vRange ctx t s).1.erase, (vRange ctx t s).2) := by
  unfold vRange rRange
  cases matchTok (· == .kTo) isNumKind s.take with
  | none => simp only [VTree.erase]
  | some p => simp only [VTree.erase]

/-- The expressions of a list without their texts. -/
def dropText (q : ListShape × List VTree × JStr × RState) : ListShape × List RTree × RState :=
  (q.1, VTree.eraseAll q.2.1, q.2.2.2)

theorem v_erase (f : Nat) :
    (∀ p ctx s, rExpr f p ctx s = (vExpr f p ctx s).map fun q => (q.1.erase, q.2)) ∧
    (∀ ctx s, rPrimary f ctx s = (vPrimary f ctx s).map fun q => (q.1.erase, q.2)) ∧
    (∀ ctx t s, rField f ctx t s = (vField f ctx t s).map fun q => (q.1.erase, q.2)) ∧
    (∀ p ctx l s, rLoop f p ctx l.erase s = (vLoop f p ctx l s).map fun q => (q.1.erase, q.2)) ∧
    (∀ ctx s, rWordlist f ctx s = (vWordlist f ctx s).map dropText) ∧
    (∀ ctx s, rMore f ctx s = (vMore f ctx s).map dropText) := by
  induction f with
  | zero => exact ⟨fun _ _ _ => rfl, fun _ _ => rfl, fun _ _ _ => rfl, fun _ _ _ _ => rfl, fun _ _ => rfl, fun _ _ => rfl⟩
  | succ f ih =>
    obtain ⟨ihE, ihP, ihF, ihL, ihW, ihM⟩ := ih
    refine ⟨?_, ?_, ?_, ?_, ?_, ?_⟩
    · intro p ctx s
      rw [rExpr, vExpr, ihP]
      rcases vPrimary f ctx s with _ | ⟨t, _ | _, s'⟩
      · rfl
      · rfl
      · exact ihL _ _ _ _
    · intro ctx s
      rw [rPrimary, vPrimary]
      generalize s.la = k
      cases k with
      | lparen =>
        simp only [ihE]
        rcases vExpr f 0 (.rparen :: ctx) s.take with _ | ⟨e, s1⟩
        · rfl
        · simp only [Option.map_some]
          rcases matchTok (· == .rparen) (lookAfter (.ops :: ctx)) s1 with _ | ⟨us, s2⟩ <;>
            simp only [Option.map_some, VTree.erase]
      | kNot =>
        simp only [ihE]
        rcases vExpr f 15 (.ops :: ctx) s.take with _ | ⟨e, s1⟩ <;> simp only [Option.map_some, Option.map_none, VTree.erase]
      | arith op =>
        cases op with
        | sub =>
          simp only [ihE]
          split
          · rcases vExpr f 13 (.ops :: ctx) s.take with _ | ⟨e, s1⟩ <;>
              simp only [Option.map_some, Option.map_none, VTree.erase]
          · simp only [Option.map_some, VTree.erase]
        | _ => rfl
      | fn g =>
        simp only [ihW]
        rcases vWordlist f (.ops :: ctx) s.take with _ | ⟨sh, es, x, s1⟩ <;>
          simp only [Option.map_some, Option.map_none, VTree.erase, dropText]
      | field =>
        simp only
        split
        · rw [vRange_erase]; rfl
        · exact ihF _ _ _
      | _ => rfl
    · intro ctx t s
      rw [rField, vField]
      generalize s.la = k
      cases k with
      | kIn =>
        simp only [ihW]
        rcases vWordlist f (.ops :: ctx) s.take with _ | ⟨sh, es, x, s1⟩ <;>
          simp only [Option.map_some, Option.map_none, VTree.erase, dropText]
      | kNot =>
        simp only
        rcases matchTok (· == .kIn) (· == .lparen) s.take with _ | ⟨us, s1⟩
        · simp only [Option.map_some, VTree.erase, VTree.eraseAll]
        · simp only [ihW]
          rcases vWordlist f (.ops :: ctx) s1 with _ | ⟨sh, es, x, s2⟩ <;>
            simp only [Option.map_some, Option.map_none, VTree.erase, dropText]
      | cAll =>
        simp only [ihW]
        rcases vWordlist f (.ops :: ctx) s.take with _ | ⟨sh, es, x, s1⟩ <;>
          simp only [Option.map_some, Option.map_none, VTree.erase, dropText]
      | cAny =>
        simp only [ihW]
        rcases vWordlist f (.ops :: ctx) s.take with _ | ⟨sh, es, x, s1⟩ <;>
          simp only [Option.map_some, Option.map_none, VTree.erase, dropText]
      | _ => rfl
    · intro p ctx l s
      rw [rLoop, vLoop]
      rcases binTok s.la with _ | b
      · rfl
      · simp only
        split
        · rw [ihE]
          rcases vExpr f (b.prec + 1) (.ops :: ctx) s.take with _ | ⟨r, s'⟩
          · rfl
          · simp only [Option.map_some]
            rw [← mkV_erase _ s.head.text, ihL]
        · rfl
    · intro ctx s
      rw [rWordlist, vWordlist]
      rcases matchTok (· == .lparen) inListKind s with _ | ⟨us, s1⟩
      · simp only [Option.map_some, dropText, VTree.eraseAll]
      · simp only
        rcases syncTok inListKind s1 with _ | s2
        · simp only [Option.map_some, dropText, VTree.eraseAll]
        · simp only [ihE]
          rcases vExpr f 0 (.items :: ctx) s2 with _ | ⟨e, s3⟩
          · rfl
          · simp only [Option.map_some]
            rcases syncTok (Frame.has .items) s3 with _ | s4
            · simp only [Option.map_some, dropText, VTree.eraseAll]
            · simp only [ihM]
              rcases vMore f ctx s4 with _ | ⟨sh, es, x, s5⟩
              · rfl
              · simp only [Option.map_some, dropText, VTree.eraseAll]
    · intro ctx s
      rw [rMore, vMore]
      split
      · rcases syncTok inListKind s.take with _ | s1
        · simp only [Option.map_some, dropText, VTree.eraseAll]
        · simp only [ihE]
          rcases vExpr f 0 (.items :: ctx) s1 with _ | ⟨e, s2⟩
          · rfl
          · simp only [Option.map_some]
            rcases syncTok (Frame.has .items) s2 with _ | s3
            · simp only [Option.map_some, dropText, VTree.eraseAll]
            · simp only [ihM]
              rcases vMore f ctx s3 with _ | ⟨sh, es, x, s4⟩
              · rfl
              · simp only [Option.map_some, dropText, VTree.eraseAll]
      · rcases matchTok (· == .rparen) (lookAfter ctx) s with _ | ⟨us, s1⟩ <;>
          simp only [Option.map_some, dropText, VTree.eraseAll]

theorem vParse_erase (ts : List Token) : (rParse ts).map Prod.fst = (vParse ts).map fun q => q.1.erase := by
  unfold rParse vParse
  rw [(v_erase _).1]
  rcases vExpr (parseFuel ts) 0 [.eof] (.init ts) with _ | ⟨t, s⟩
  · rfl
  · simp only [Option.map_some]
    rcases matchTok (· == .eof) (fun _ => false) s with _ | ⟨us, s'⟩ <;> rfl

/-! ## Where the texts come from -/

mutual
/-- `Q` holds of the texts of all contexts, `P` of the names. -/
def VTree.All (Q : JStr → Prop) (P : TK → JStr → Prop) : VTree → Prop
  | .paren x t => Q x ∧ t.All Q P
  | .not_ x t => Q x ∧ t.All Q P
  | .cmp x _ l r => Q x ∧ l.All Q P ∧ r.All Q P
  | .neg x t => Q x ∧ t.All Q P
  | .arith x _ l r => Q x ∧ l.All Q P ∧ r.All Q P
  | .func x f name _ items => Q x ∧ P (.fn f) name ∧ VTree.AllAll Q P items
  | .bin x _ l r => Q x ∧ l.All Q P ∧ r.All Q P
  | .types _ _ => True
  | .to_ x _ _ _ => Q x
  | .in_ x _ _ _ items => Q x ∧ VTree.AllAll Q P items
  | .array x _ op name _ items => Q x ∧ P op.kind name ∧ VTree.AllAll Q P items
  | .bad x => Q x
def VTree.AllAll (Q : JStr → Prop) (P : TK → JStr → Prop) : List VTree → Prop
  | [] => True
  | t :: ts => t.All Q P ∧ VTree.AllAll Q P ts
end

theorem _root_.BoolParser.Spec.Spelt.append {p q : List JStr} {x y : JStr} (h : Spelt p x) (h' : Spelt q y) : Spelt (p ++ q) (x ++ y) := by
  induction h with
  | nil => exact h'
  | token _ ih => rw [List.append_assoc]; exact .token ih
  | mark hm _ ih => rw [List.append_assoc]; exact .mark hm ih

theorem mended_texts (ts : List Token) : Spelt (ts.map Token.text) (textOf ts) := by
  unfold textOf
  induction ts with
  | nil => exact .nil
  | cons t ts ih => rw [List.map_cons, List.flatten_cons]; exact .token ih

/-- From state `s` to state `s'` tokens are read whose texts are `x`, up to marks. -/
def PieceV (s s' : RState) (x : JStr) : Prop := ∃ p, s.toks = p ++ s'.toks ∧ Spelt (p.map Token.text) x

theorem PieceV.append {s s1 s2 : RState} {x y : JStr} (h : PieceV s s1 x) (h' : PieceV s1 s2 y) : PieceV s s2 (x ++ y) := by
  obtain ⟨p, hp, hx⟩ := h
  obtain ⟨q, hq, hy⟩ := h'
  exact ⟨p ++ q, by rw [hp, hq, List.append_assoc], by rw [List.map_append]; exact hx.append hy⟩

theorem piece_refl {s s' : RState} (h : s.toks = s'.toks) : PieceV s s' [] := ⟨[], by simpa using h, .nil⟩

theorem piece_take {s : RState} (h : s.la ≠ .eof) : PieceV s s.take s.head.text := by
  unfold RState.take RState.consume RState.reportMatch RState.head
  unfold RState.la RState.head at h
  cases e : s.toks with
  | nil => rw [e] at h; exact absurd rfl h
  | cons t ts => exact ⟨[t], by simp [e], by simpa [textOf] using mended_texts [t]⟩

theorem report_toksV (s : RState) : s.report.toks = s.toks := by
  unfold RState.report; split <;> rfl

theorem skip_append (stop : TK → Bool) (ts : List Token) : (skipUntil stop ts).1 ++ (skipUntil stop ts).2 = ts := by
  induction ts with
  | nil => rfl
  | cons t ts ih =>
    rw [skipUntil]
    split
    · rfl
    · simp [ih]

theorem mended_eof : Spelt [] (textOf [eofTok]) :=
  .mark (m := j!"<EOF>") (by simp [marks]) .nil

theorem piece_fail (ctx : List Frame) (st : Nat) (s : RState) : PieceV s (failAt ctx st s).2 (textOf (failAt ctx st s).1) := by
  unfold failAt recover
  have hr := report_toksV s
  generalize s.report = s1 at hr
  simp only
  split
  · rename_i h
    simp only [RState.consume, RState.head]
    cases e : s1.toks with
    | nil =>
      refine ⟨[], by rw [← hr, e]; rfl, ?_⟩
      simpa [skipUntil] using mended_eof
    | cons t ts =>
      refine ⟨t :: (skipUntil (recoverySet ctx) ts).1, ?_, ?_⟩
      · rw [← hr, e, List.tail_cons, List.cons_append, skip_append]
      · simpa using mended_texts (t :: (skipUntil (recoverySet ctx) ts).1)
  · refine ⟨(skipUntil (recoverySet ctx) s1.toks).1, by rw [skip_append, hr], ?_⟩
    simpa using mended_texts (skipUntil (recoverySet ctx) s1.toks).1

theorem piece_match {want after : TK → Bool} {s s' : RState} {us : List Token} {m : JStr} (hm : m ∈ marks)
    (hw : want .eof = false) (h : matchTok want after s = some (us, s')) : PieceV s s' (matchText m us) := by
  unfold matchTok at h
  split at h
  · cases h
    rename_i h
    have := piece_take (s := s) (fun e => by rw [e, hw] at h; cases h)
    simpa [matchText, textOf] using this
  · split at h
    · rename_i h2
      cases h
      unfold RState.la2 at h2
      match e : s.toks, h2 with
      | [], h2 => rw [hw] at h2; cases h2
      | [_], h2 => rw [hw] at h2; cases h2
      | t :: u :: ts, h2 =>
        refine ⟨[t, u], ?_, ?_⟩
        · simp [RState.take, RState.consume, RState.reportMatch, report_toksV, e]
        · simpa [matchText] using mended_texts [t, u]
    · split at h
      · cases h
        refine ⟨[], by simp [report_toksV], ?_⟩
        simpa [matchText] using Spelt.mark hm .nil
      · cases h

theorem piece_sync {want : TK → Bool} (hw : want .eof = false) {s s' : RState} (h : syncTok want s = some s') :
    PieceV s s' (syncText want s) := by
  unfold syncTok at h
  unfold syncText
  split at h
  · cases h; rename_i h1; rw [if_pos h1]; exact piece_refl rfl
  · rename_i h1; rw [if_neg h1]
    split at h
    · cases h; rename_i h2; rw [if_pos h2]; exact piece_refl rfl
    · rename_i h2; rw [if_neg h2]
      split at h
      · rename_i h3; rw [if_pos h3]
        cases h
        unfold RState.la2 at h3
        match e : s.toks, h3 with
        | [], h3 => rw [hw] at h3; cases h3
        | [_], h3 => rw [hw] at h3; cases h3
        | t :: u :: ts, h3 =>
          refine ⟨[t], ?_, ?_⟩
          · simp [RState.consume, RState.reportMatch, report_toksV, e]
          · simpa [RState.head, e] using mended_texts [t]
      · cases h

theorem piece_upper (ctx : List Frame) (s : RState) : PieceV s (rUpper ctx s).2 (rUpper ctx s).1.2 := by
  unfold rUpper
  rcases e : matchTok isNumKind (lookAfter (.ops :: ctx)) s with _ | ⟨us, s'⟩
  · exact piece_fail _ _ _
  · have h := e
    unfold matchTok at h
    split at h
    · cases h
      rename_i h
      have := piece_take (s := s) (fun e => by rw [e] at h; cases h)
      simpa using this
    · split at h
      · cases h
        have := piece_match (m := j!"<EOF>") (by simp [marks]) rfl e
        rename_i h2
        unfold RState.la2 at h2
        match e : s.toks, h2 with
        | [], h2 => cases h2
        | [_], h2 => cases h2
        | t :: u :: ts, h2 => simpa [matchText, textOf, e] using this
      · split at h
        · cases h; exact piece_refl (report_toksV s).symm
        · cases h

/-- The tokens not read yet are the last ones of `all`. -/
def WithinV (all : List Token) (s : RState) : Prop := ∃ pre, all = pre ++ s.toks

theorem WithinV.step {all : List Token} {s s' : RState} {x : JStr} (h : WithinV all s) (hp : PieceV s s' x) : WithinV all s' := by
  obtain ⟨pre, h⟩ := h
  obtain ⟨p, hp, _⟩ := hp
  exact ⟨pre ++ p, by rw [h, hp, List.append_assoc]⟩

theorem WithinV.quotes {all : List Token} {s s' : RState} {x : JStr} (h : WithinV all s) (hp : PieceV s s' x) :
    Quotes (all.map Token.text) x := by
  obtain ⟨pre, h⟩ := h
  obtain ⟨p, hp, hx⟩ := hp
  exact ⟨pre.map Token.text, p.map Token.text, s'.toks.map Token.text, by rw [h, hp]; simp, hx⟩

/-- A token of the list. -/
def Among (all : List Token) (k : TK) (name : JStr) : Prop := ∃ t ∈ all, t.kind = k ∧ t.text = name

theorem WithinV.among {all : List Token} {s : RState} (h : WithinV all s) (hk : s.la ≠ .eof) : Among all s.la s.head.text := by
  obtain ⟨pre, h⟩ := h
  refine ⟨s.head, ?_, rfl, rfl⟩
  unfold RState.la RState.head at hk
  unfold RState.head
  rw [h]
  cases e : s.toks with
  | nil => rw [e] at hk; exact absurd rfl hk
  | cons t ts => simp

theorem vRange_pieces {all : List Token} {ctx : List Frame} {s0 s : RState} {t : Token} (hs : WithinV all s0)
    (h0 : PieceV s0 s t.text) (hk : isNumKind s.la = true) :
    PieceV s0 (vRange ctx t s).2.2 (vRange ctx t s).1.text ∧
      (vRange ctx t s).1.All (Quotes (all.map Token.text)) (Among all) := by
  have h1 := h0.append (piece_take (s := s) fun e => by rw [e] at hk; cases hk)
  unfold vRange
  rcases e : matchTok (· == .kTo) isNumKind s.take with _ | ⟨us, s1⟩
  · have h2 := h1.append (piece_fail ctx 40 s.take)
    exact ⟨h2, by rw [VTree.All]; exact hs.quotes h2⟩
  · have h2 := (h1.append (piece_match (m := j!"<missing TO>") (by simp [marks]) rfl e)).append (piece_upper ctx s1)
    exact ⟨h2, by rw [VTree.All]; exact hs.quotes h2⟩

theorem v_pieces (all : List Token) (f : Nat) :
    (∀ p ctx s t s', WithinV all s → vExpr f p ctx s = some (t, s') →
      PieceV s s' t.text ∧ t.All (Quotes (all.map Token.text)) (Among all)) ∧
    (∀ ctx s t b s', WithinV all s → vPrimary f ctx s = some (t, b, s') →
      PieceV s s' t.text ∧ t.All (Quotes (all.map Token.text)) (Among all)) ∧
    (∀ ctx u s0 s t b s', WithinV all s0 → PieceV s0 s u.text → vField f ctx u s = some (t, b, s') →
      PieceV s0 s' t.text ∧ t.All (Quotes (all.map Token.text)) (Among all)) ∧
    (∀ p ctx l s0 s t s', WithinV all s0 → PieceV s0 s l.text → l.All (Quotes (all.map Token.text)) (Among all) →
      vLoop f p ctx l s = some (t, s') → PieceV s0 s' t.text ∧ t.All (Quotes (all.map Token.text)) (Among all)) ∧
    (∀ ctx s sh es x s', WithinV all s → vWordlist f ctx s = some (sh, es, x, s') →
      PieceV s s' x ∧ VTree.AllAll (Quotes (all.map Token.text)) (Among all) es) ∧
    (∀ ctx s sh es x s', WithinV all s → vMore f ctx s = some (sh, es, x, s') →
      PieceV s s' x ∧ VTree.AllAll (Quotes (all.map Token.text)) (Among all) es) := by
  induction f with
  | zero =>
    refine ⟨?_, ?_, ?_, ?_, ?_, ?_⟩ <;> intros <;> rename_i h <;> cases h
  | succ f ih =>
    obtain ⟨ihE, ihP, ihF, ihL, ihW, ihM⟩ := ih
    refine ⟨?_, ?_, ?_, ?_, ?_, ?_⟩
    · intro p ctx s t s' hs h
      rw [vExpr] at h
      rcases e : vPrimary f ctx s with _ | ⟨t1, _ | _, s1⟩ <;> rw [e] at h
      · cases h
      · cases h; exact ihP _ _ _ _ _ hs e
      · obtain ⟨h1, h2⟩ := ihP _ _ _ _ _ hs e
        exact ihL _ _ _ _ _ _ _ hs h1 h2 h
    · intro ctx s t b s' hs h
      rw [vPrimary] at h
      split at h
      · rename_i hk
        have h0 := piece_take (s := s) (by rw [hk]; exact nofun)
        rcases e : vExpr f 0 (.rparen :: ctx) s.take with _ | ⟨e1, s1⟩ <;> rw [e] at h
        · cases h
        · obtain ⟨h1, h2⟩ := ihE _ _ _ _ _ (hs.step h0) e
          have h1 := h0.append h1
          simp only at h
          rcases e2 : matchTok (· == .rparen) (lookAfter (.ops :: ctx)) s1 with _ | ⟨us, s2⟩ <;> rw [e2] at h
          · cases h
            have h3 := h1.append (piece_fail ctx 28 s1)
            exact ⟨h3, by rw [VTree.All]; exact ⟨hs.quotes h3, h2⟩⟩
          · cases h
            have h3 := h1.append (piece_match (m := j!"<missing ')'>") (by simp [marks]) rfl e2)
            exact ⟨h3, by rw [VTree.All]; exact ⟨hs.quotes h3, h2⟩⟩
      · rename_i hk
        have h0 := piece_take (s := s) (by rw [hk]; exact nofun)
        rcases e : vExpr f 15 (.ops :: ctx) s.take with _ | ⟨e1, s1⟩ <;> rw [e] at h
        · cases h
        · obtain ⟨h1, h2⟩ := ihE _ _ _ _ _ (hs.step h0) e
          cases h
          have h1 := h0.append h1
          exact ⟨h1, by rw [VTree.All]; exact ⟨hs.quotes h1, h2⟩⟩
      · rename_i hk
        split at h
        · have h0 := piece_take (s := s) (by rw [hk]; exact nofun)
          rcases e : vExpr f 13 (.ops :: ctx) s.take with _ | ⟨e1, s1⟩ <;> rw [e] at h
          · cases h
          · obtain ⟨h1, h2⟩ := ihE _ _ _ _ _ (hs.step h0) e
            cases h
            have h1 := h0.append h1
            exact ⟨h1, by rw [VTree.All]; exact ⟨hs.quotes h1, h2⟩⟩
        · cases h
          have h1 := piece_fail ctx 53 s
          exact ⟨h1, by rw [VTree.All]; exact hs.quotes h1⟩
      · rename_i g hk
        have hne : s.la ≠ .eof := by rw [hk]; exact nofun
        have h0 := piece_take (s := s) hne
        have ha := hs.among hne
        rw [hk] at ha
        rcases e : vWordlist f (.ops :: ctx) s.take with _ | ⟨sh, es, x, s1⟩ <;> rw [e] at h
        · cases h
        · obtain ⟨h1, h2⟩ := ihW _ _ _ _ _ _ (hs.step h0) e
          cases h
          have h1 := h0.append h1
          exact ⟨h1, by rw [VTree.All]; exact ⟨hs.quotes h1, ha, h2⟩⟩
      · rename_i hk
        have h0 := piece_take (s := s) (by rw [hk]; exact nofun)
        split at h
        · rename_i hn
          have := vRange_pieces (ctx := ctx) hs h0 hn
          generalize vRange ctx s.head s.take = v at *
          cases h
          exact this
        · exact ihF _ _ _ _ _ _ _ hs h0 h
      · split at h
        · rename_i hl
          cases h
          exact ⟨by simpa [VTree.text] using piece_take (s := s) (fun e => by rw [e] at hl; cases hl), by
            rw [VTree.All]; trivial⟩
        · cases h
          exact ⟨by simpa [VTree.text] using piece_refl (s := s) rfl, by rw [VTree.All]; trivial⟩
    · intro ctx u s0 s t b s' hs hu h
      have hs1 := hs.step hu
      rw [vField] at h
      split at h
      · rename_i hk
        have h0 := piece_take (s := s) (by rw [hk]; exact nofun)
        rcases e : vWordlist f (.ops :: ctx) s.take with _ | ⟨sh, es, x, s1⟩ <;> rw [e] at h
        · cases h
        · obtain ⟨h1, h2⟩ := ihW _ _ _ _ _ _ (hs1.step h0) e
          cases h
          have h1 := (hu.append h0).append h1
          exact ⟨h1, by rw [VTree.All]; exact ⟨hs.quotes h1, h2⟩⟩
      · rename_i hk
        have h0 := piece_take (s := s) (by rw [hk]; exact nofun)
        rcases e1 : matchTok (· == .kIn) (· == .lparen) s.take with _ | ⟨us, s1⟩ <;> rw [e1] at h
        · cases h
          have h1 := (hu.append h0).append (piece_fail ctx 47 s.take)
          exact ⟨h1, by rw [VTree.All, VTree.AllAll]; exact ⟨hs.quotes h1, trivial⟩⟩
        · have h3 := piece_match (m := j!"<missing IN>") (by simp [marks]) rfl e1
          simp only at h
          rcases e : vWordlist f (.ops :: ctx) s1 with _ | ⟨sh, es, x, s2⟩ <;> rw [e] at h
          · cases h
          · obtain ⟨h1, h2⟩ := ihW _ _ _ _ _ _ ((hs1.step h0).step h3) e
            cases h
            have h1 := ((hu.append h0).append h3).append h1
            exact ⟨h1, by rw [VTree.All]; exact ⟨hs.quotes h1, h2⟩⟩
      · rename_i hk
        have hne : s.la ≠ .eof := by rw [hk]; exact nofun
        have h0 := piece_take (s := s) hne
        have ha := hs1.among hne
        rw [hk] at ha
        rcases e : vWordlist f (.ops :: ctx) s.take with _ | ⟨sh, es, x, s1⟩ <;> rw [e] at h
        · cases h
        · obtain ⟨h1, h2⟩ := ihW _ _ _ _ _ _ (hs1.step h0) e
          cases h
          have h1 := (hu.append h0).append h1
          exact ⟨h1, by rw [VTree.All]; exact ⟨hs.quotes h1, ha, h2⟩⟩
      · rename_i hk
        have hne : s.la ≠ .eof := by rw [hk]; exact nofun
        have h0 := piece_take (s := s) hne
        have ha := hs1.among hne
        rw [hk] at ha
        rcases e : vWordlist f (.ops :: ctx) s.take with _ | ⟨sh, es, x, s1⟩ <;> rw [e] at h
        · cases h
        · obtain ⟨h1, h2⟩ := ihW _ _ _ _ _ _ (hs1.step h0) e
          cases h
          have h1 := (hu.append h0).append h1
          exact ⟨h1, by rw [VTree.All]; exact ⟨hs.quotes h1, ha, h2⟩⟩
      · cases h
        exact ⟨by simpa [VTree.text] using hu, by rw [VTree.All]; trivial⟩
    · intro p ctx l s0 s t s' hs hl hal h
      rw [vLoop] at h
      rcases eb : binTok s.la with _ | b <;> rw [eb] at h
      · cases h; exact ⟨hl, hal⟩
      · simp only at h
        split at h
        · have h0 := piece_take (s := s) (fun e => by rw [e] at eb; cases eb)
          rcases e : vExpr f (b.prec + 1) (.ops :: ctx) s.take with _ | ⟨r, s1⟩ <;> rw [e] at h
          · cases h
          · obtain ⟨h1, h2⟩ := ihE _ _ _ _ _ ((hs.step hl).step h0) e
            have h3 := (hl.append h0).append h1
            refine ihL _ _ _ _ _ _ _ hs ?_ ?_ h
            · cases b <;> exact h3
            · have := hs.quotes h3
              cases b <;> rw [BinTok.mkV, VTree.All] <;> exact ⟨this, hal, h2⟩
        · cases h; exact ⟨hl, hal⟩
    · intro ctx s sh es x s' hs h
      rw [vWordlist] at h
      rcases e0 : matchTok (· == .lparen) inListKind s with _ | ⟨us, s1⟩ <;> rw [e0] at h
      · cases h
        exact ⟨piece_fail ctx 92 s, by rw [VTree.AllAll]; trivial⟩
      · have h0 := piece_match (m := j!"<missing '('>") (by simp [marks]) rfl e0
        simp only at h
        rcases e1 : syncTok inListKind s1 with _ | s2 <;> rw [e1] at h
        · cases h
          exact ⟨h0.append (piece_fail ctx 96 s1), by rw [VTree.AllAll]; trivial⟩
        · have h1 := h0.append (piece_sync rfl e1)
          simp only at h
          rcases e2 : vExpr f 0 (.items :: ctx) s2 with _ | ⟨e, s3⟩ <;> rw [e2] at h
          · cases h
          · obtain ⟨h2, ha⟩ := ihE _ _ _ _ _ (hs.step h1) e2
            have h2 := h1.append h2
            simp only at h
            rcases e3 : syncTok (Frame.has .items) s3 with _ | s4 <;> rw [e3] at h
            · cases h
              exact ⟨h2.append (piece_fail ctx 103 s3), by rw [VTree.AllAll, VTree.AllAll]; exact ⟨ha, trivial⟩⟩
            · have h3 := h2.append (piece_sync rfl e3)
              simp only at h
              rcases e4 : vMore f ctx s4 with _ | ⟨sh, es, x, s5⟩ <;> rw [e4] at h
              · cases h
              · obtain ⟨h4, hb⟩ := ihM _ _ _ _ _ _ (hs.step h3) e4
                cases h
                exact ⟨h3.append h4, by rw [VTree.AllAll]; exact ⟨ha, hb⟩⟩
    · intro ctx s sh es x s' hs h
      rw [vMore] at h
      split at h
      · rename_i hk
        have h0 := piece_take (s := s) (by rw [hk]; exact nofun)
        rcases e1 : syncTok inListKind s.take with _ | s2 <;> rw [e1] at h
        · cases h
          exact ⟨h0.append (piece_fail ctx 110 s.take), by rw [VTree.AllAll]; trivial⟩
        · have h1 := h0.append (piece_sync rfl e1)
          simp only at h
          rcases e2 : vExpr f 0 (.items :: ctx) s2 with _ | ⟨e, s3⟩ <;> rw [e2] at h
          · cases h
          · obtain ⟨h2, ha⟩ := ihE _ _ _ _ _ (hs.step h1) e2
            have h2 := h1.append h2
            simp only at h
            rcases e3 : syncTok (Frame.has .items) s3 with _ | s4 <;> rw [e3] at h
            · cases h
              exact ⟨h2.append (piece_fail ctx 117 s3), by rw [VTree.AllAll, VTree.AllAll]; exact ⟨ha, trivial⟩⟩
            · have h3 := h2.append (piece_sync rfl e3)
              simp only at h
              rcases e4 : vMore f ctx s4 with _ | ⟨sh, es, x, s5⟩ <;> rw [e4] at h
              · cases h
              · obtain ⟨h4, hb⟩ := ihM _ _ _ _ _ _ (hs.step h3) e4
                cases h
                exact ⟨h3.append h4, by rw [VTree.AllAll]; exact ⟨ha, hb⟩⟩
      · rcases e0 : matchTok (· == .rparen) (lookAfter ctx) s with _ | ⟨us, s1⟩ <;> rw [e0] at h
        · cases h
          exact ⟨piece_fail ctx 125 s, by rw [VTree.AllAll]; trivial⟩
        · cases h
          exact ⟨piece_match (by simp [marks]) rfl e0, by rw [VTree.AllAll]; trivial⟩

/-- All texts of contexts quote the text, and all names stand in it. -/
theorem vParse_all {ts : List Token} {t : VTree} {x : JStr} (h : vParse ts = some (t, x)) :
    t.All (Quotes (ts.map Token.text)) (Among ts) ∧ Quotes (ts.map Token.text) x := by
  unfold vParse at h
  have h0 : WithinV ts (.init ts) := ⟨[], rfl⟩
  rcases e : vExpr (parseFuel ts) 0 [.eof] (.init ts) with _ | ⟨t1, s⟩ <;> rw [e] at h
  · cases h
  · obtain ⟨h1, h2⟩ := (v_pieces ts _).1 _ _ _ _ _ h0 e
    simp only at h
    rcases e2 : matchTok (· == .eof) (fun _ => false) s with _ | ⟨us, s'⟩ <;> rw [e2] at h
    · cases h
      exact ⟨h2, h0.quotes (h1.append (piece_fail [] 23 s))⟩
    · cases h
      refine ⟨h2, ?_⟩
      have h3 : PieceV s (.init []) (textOf s.toks) := ⟨s.toks, by simp [RState.init], mended_texts _⟩
      have h4 : PieceV (.init []) (.init []) j!"<EOF>" := ⟨[], rfl, mended_eof⟩
      exact h0.quotes ((h1.append h3).append h4)

end BoolParser
