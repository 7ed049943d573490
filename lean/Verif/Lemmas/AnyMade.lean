import Verif.Lemmas.Made
import Verif.Lemmas.RecoveryFrom
/-!
# What the node of any text is made of

The counterpart of `Verif/Lemmas/Made.lean` for repaired parse trees.
-/

namespace BoolParser

section
variable (S : Stock) (E : Prop)

mutual
/-- The repaired tree uses only what may be used; `E`: operands may be missing. -/
def OverR : RTree → Prop
  | .paren t => OverR t
  | .not_ t => S.kind .kNot ∧ OverR t
  | .cmp op l r => S.kind (.cmp op) ∧ OverR l ∧ OverR r
  | .neg t => S.kind (.arith .sub) ∧ OverR t
  | .arith op l r => S.kind (.arith op) ∧ OverR l ∧ OverR r
  | .func f sh items => S.kind (.fn f) ∧ (sh = .complete → items ≠ []) ∧ OverRs items
  | .bin c l r => S.kind (connKind c) ∧ OverR l ∧ OverR r
  | .types t e => TokMade S t ∧ (e = true → E)
  | .to_ f lo hi => S.field f.text ∧ TokMade S lo ∧
      ∀ u x, hi = some (u, x) → S.kind .kTo ∧ ∀ v, convertValue x (tokType u) = .ok v → S.bound (tokType u) v
  | .in_ f neg sh items => (sh ≠ .absent → S.kind .kIn) ∧ S.field f.text ∧ (neg = true → S.kind .kNot) ∧ OverRs items
  | .array f op _ items => S.kind op.kind ∧ S.field f.text ∧ OverRs items
  | .bad => True
def OverRs : List RTree → Prop
  | [] => True
  | t :: ts => OverR t ∧ OverRs ts
end
end

variable {S : Stock} {E : Prop} {df : Option JStr}

theorem yields_shape {sh : ListShape} : Yields (fun _ => sh = .complete) sh.noException := by
  cases sh <;> first | exact yields_ok rfl | exact yields_err _

theorem yields_children {sh : ListShape} : Yields (fun _ => sh ≠ .absent) sh.children := by
  cases sh <;> first | exact yields_ok (by simp) | exact yields_err _

mutual
theorem mapNodeR_made (hE : E → Omit S df) : (t : RTree) → OverR S E t → ∀ st, StackMade S st →
    Yields (PairMade S) (mapNodeR df t st)
  | .types t e, h, st, hs => by
    rw [OverR] at h
    simp only [mapNodeR]
    exact yields_bind (mapTypes_made hE h.1 h.2) fun n hn => yields_ok ⟨hn, hs⟩
  | .func f sh items, h, st, hs => by
    rw [OverR] at h
    simp only [mapNodeR]
    refine yields_bind yields_shape fun _ hsh => yields_bind (mapNodesR_made hE items h.2.2 st hs) fun p hp =>
      yields_ok ⟨⟨h.1, ?_, hp.1⟩, hp.2.2⟩
    intro h0
    have := hp.2.1
    rw [h0] at this
    exact h.2.1 hsh (List.length_eq_zero_iff.1 this.symm)
  | .in_ f neg sh items, h, st, hs => by
    rw [OverR] at h
    simp only [mapNodeR]
    refine yields_bind yields_children fun _ hsh => yields_bind (mapNodesR_made hE items h.2.2.2 st hs) fun p hp =>
      yields_ok ⟨?_, hp.2.2⟩
    cases neg
    · exact ⟨h.1 hsh, h.2.1, hp.1⟩
    · exact ⟨h.2.2.1 rfl, h.1 hsh, h.2.1, hp.1⟩
  | .to_ f lo hi, h, st, hs => by
    rw [OverR] at h
    simp only [mapNodeR]
    refine yields_bind h.2.1.2.2.2 fun a ha => ?_
    split
    · exact yields_err _
    · rename_i u x
      obtain ⟨h1, h2⟩ := h.2.2 u x rfl
      exact yields_bind h2 fun b hb => yields_ok ⟨⟨h1, h.1, ha, hb⟩, hs⟩
  | .cmp op l r, h, st, hs => by
    rw [OverR] at h
    simp only [mapNodeR]
    refine yields_ite ?_ (yields_ite ?_ ?_)
    · exact yields_bind (mapNodeR_made hE l h.2.1 st hs) fun p hp => yields_bind (popN_made hp.2) fun q hq =>
        yields_ok ⟨⟨h.1, hp.1, hq.1⟩, hq.2⟩
    · exact yields_bind (mapNodeR_made hE r h.2.2 st hs) fun p hp => yields_bind (popN_made hp.2) fun q hq =>
        yields_ok ⟨⟨h.1, hq.1, hp.1⟩, hq.2⟩
    · exact yields_bind (mapNodeR_made hE r h.2.2 st hs) fun p hp => yields_bind (mapNodeR_made hE l h.2.1 _ hp.2) fun q hq =>
        yields_ok ⟨⟨h.1, hq.1, hp.1⟩, hq.2⟩
  | .arith op l r, h, st, hs => by
    rw [OverR] at h
    simp only [mapNodeR]
    refine yields_ite ?_ (yields_ite ?_ (yields_ite ?_ ?_))
    · exact yields_bind (mapNodeR_made hE l h.2.1 st hs) fun p hp => yields_bind (mapNodeR_made hE r h.2.2 _ hp.2) fun q hq =>
        yields_ok ⟨⟨h.1, hp.1, hq.1⟩, hq.2⟩
    · exact yields_bind (mapNodeR_made hE l h.2.1 st hs) fun p hp => yields_bind (popN_made hp.2) fun q hq =>
        yields_ok ⟨⟨h.1, hp.1, hq.1⟩, hq.2⟩
    · exact yields_bind (mapNodeR_made hE r h.2.2 st hs) fun p hp => yields_bind (popN_made hp.2) fun q hq =>
        yields_ok ⟨⟨h.1, hq.1, hp.1⟩, hq.2⟩
    · match st, hs with
      | b :: a :: st, hs =>
        exact yields_ok ⟨⟨h.1, stackMade_top (stackMade_tail hs), stackMade_top hs⟩, stackMade_tail (stackMade_tail hs)⟩
      | [_], _ => exact yields_err _
      | [], _ => exact yields_err _
  | .paren _, _, _, _ => by simp only [mapNodeR]; exact yields_err _
  | .not_ _, _, _, _ => by simp only [mapNodeR]; exact yields_err _
  | .neg _, _, _, _ => by simp only [mapNodeR]; exact yields_err _
  | .bin _ _ _, _, _, _ => by simp only [mapNodeR]; exact yields_err _
  | .array _ _ _ _, _, _, _ => by simp only [mapNodeR]; exact yields_err _
  | .bad, _, _, _ => by simp only [mapNodeR]; exact yields_err _
theorem mapNodesR_made (hE : E → Omit S df) : (ts : List RTree) → OverRs S E ts → ∀ st, StackMade S st →
    Yields (PairsMade S ts.length) (mapNodesR df ts st)
  | [], _, st, hs => by simp only [mapNodesR]; exact yields_ok ⟨trivial, rfl, hs⟩
  | t :: ts, h, st, hs => by
    rw [OverRs] at h
    simp only [mapNodesR]
    exact yields_bind (mapNodeR_made hE t h.1 st hs) fun p hp => yields_bind (mapNodesR_made hE ts h.2 _ hp.2) fun q hq =>
      yields_ok ⟨⟨hp.1, hq.1⟩, by simp [hq.2.1], hq.2.2⟩
end

theorem exitMappedR_made (hE : E → Omit S df) {t : RTree} (h : OverR S E t) {s : LState} (hs : StateMade S s) :
    Yields (StateMade S) (exitMappedR df t s) := by
  unfold exitMappedR
  exact yields_bind (mapNodeR_made hE t h _ hs.1) fun p hp => yields_ok ⟨stackMade_cons hp.1 hp.2, hs.2⟩

theorem exitNegR_made (hE : E → Omit S df) {e : RTree} (h : OverR S E e) (hk : S.kind (.arith .sub)) {s : LState}
    (hs : StateMade S s) : Yields (StateMade S) (exitNegR df e s) := by
  have leaf : Yields (StateMade S) (match (generalizing := false) e with
    | .types t em => do
      let n ← mapTypes df t em
      pure { s with stack := .neg n :: s.stack }
    | _ => .error .classCast : Result LState) := by
    cases e with
    | types u em =>
      rw [OverR] at h
      exact yields_bind (mapTypes_made hE h.1 h.2) fun n hn =>
        yields_ok ⟨stackMade_cons (n := .neg n) ⟨hk, hn⟩ hs.1, hs.2⟩
    | _ => exact yields_err _
  unfold exitNegR
  simp only
  split
  · rename_i n st e'
    refine yields_ite (yields_ok ?_) leaf
    have hs' : StackMade S (n :: st) := by rw [← e']; exact hs.1
    exact ⟨stackMade_cons (n := .neg n) ⟨hk, stackMade_top hs'⟩ (stackMade_tail hs'), hs.2⟩
  · exact leaf

theorem exitArrayR_made (hE : E → Omit S df) {f : Token} {op : ArrOp} {sh : ListShape} {items : List RTree}
    (h : OverRs S E items) (hk : S.kind op.kind) (hf : S.field f.text)
    {s : LState} (hs : StateMade S s) : Yields (StateMade S) (exitArrayR df f op sh items s) := by
  unfold exitArrayR
  exact yields_bind (yields_true _) fun _ _ => yields_bind (mapNodesR_made hE items h _ hs.1) fun p hp =>
    yields_ok ⟨stackMade_cons (n := .array f.text op p.1) ⟨hk, hf, hp.1⟩ hp.2.2, hs.2⟩

mutual
theorem walkR_made (hE : E → Omit S df) : (t : RTree) → OverR S E t → ∀ s, StateMade S s →
    Yields (StateMade S) (walkR df t s)
  | .paren t, h, s, hs => by rw [OverR] at h; simp only [walkR]; exact walkR_made hE t h s hs
  | .not_ t, h, s, hs => by
    rw [OverR] at h; simp only [walkR]
    exact yields_bind (walkR_made hE t h.2 s hs) fun s' hs' => exitNot_made h.1 hs'
  | .cmp op l r, h, s, hs => by
    have h' := h
    rw [OverR] at h'; simp only [walkR]
    exact yields_bind (walkR_made hE l h'.2.1 s hs) fun s1 h1 => yields_bind (walkR_made hE r h'.2.2 s1 h1) fun s2 h2 =>
      exitMappedR_made hE h h2
  | .neg t, h, s, hs => by
    rw [OverR] at h; simp only [walkR]
    exact yields_bind (walkR_made hE t h.2 s hs) fun s' hs' => exitNegR_made hE h.2 h.1 hs'
  | .arith op l r, h, s, hs => by
    have h' := h
    rw [OverR] at h'; simp only [walkR]
    exact yields_bind (walkR_made hE l h'.2.1 s hs) fun s1 h1 => yields_bind (walkR_made hE r h'.2.2 s1 h1) fun s2 h2 =>
      exitMappedR_made hE h h2
  | .func f sh items, h, s, hs => by
    have h' := h
    rw [OverR] at h'; simp only [walkR]
    exact yields_bind (walkAllR_made hE items h'.2.2 s hs) fun s1 h1 => exitMappedR_made hE h h1
  | .bin c l r, h, s, hs => by
    rw [OverR] at h; simp only [walkR]
    exact yields_bind (walkR_made hE l h.2.1 s hs) fun s1 h1 => yields_bind (walkR_made hE r h.2.2 s1 h1) fun s2 h2 =>
      exitBin_made h.1 h2
  | .types t e, h, s, hs => by
    rw [OverR] at h
    simp only [walkR]
    refine yields_ok ⟨hs.1, fun t' h' => ?_⟩
    cases h'
    exact h.1
  | .to_ f lo hi, h, s, hs => by simp only [walkR]; exact exitMappedR_made hE h hs
  | .in_ f neg sh items, h, s, hs => by
    have h' := h
    rw [OverR] at h'; simp only [walkR]
    exact yields_bind (walkAllR_made hE items h'.2.2.2 s hs) fun s1 h1 => exitMappedR_made hE h h1
  | .array f op sh items, h, s, hs => by
    rw [OverR] at h; simp only [walkR]
    exact yields_bind (walkAllR_made hE items h.2.2 s hs) fun s1 h1 => exitArrayR_made hE h.2.2 h.1 h.2.1 h1
  | .bad, _, s, hs => by simp only [walkR]; exact yields_ok hs
theorem walkAllR_made (hE : E → Omit S df) : (ts : List RTree) → OverRs S E ts → ∀ s, StateMade S s →
    Yields (StateMade S) (walkAllR df ts s)
  | [], _, s, hs => by simp only [walkAllR]; exact yields_ok hs
  | t :: ts, h, s, hs => by
    rw [OverRs] at h; simp only [walkAllR]
    exact yields_bind (walkR_made hE t h.1 s hs) fun s1 h1 => walkAllR_made hE ts h.2 s1 h1
end

theorem listenR_made (hE : E → Omit S df) {t : RTree} (h : OverR S E t) : Yields (Made S) (listenR df t) := by
  unfold listenR
  refine yields_bind (walkR_made hE t h LState.init ⟨by (intro n h; cases h), by (intro t h; cases h)⟩) fun s hs => ?_
  unfold exitParse
  split
  · rename_i n st e
    have hs' : StackMade S (n :: st) := by rw [← e]; exact hs.1
    exact yields_ok (stackMade_top hs')
  · split
    · rename_i t e
      refine yields_ite ?_ (yields_err _)
      split
      · rename_i hk; exact yields_ok ((hs.2 t e).1 hk)
      · exact yields_bind ((hs.2 t e).2.2.1) fun v hv => yields_ok hv
    · exact yields_err _

/-! ### The parser -/

/-- A token after which the parser may look for an operand. -/
def TK.awaits : TK → Bool
  | .kIn | .kTo | .cAll | .cAny | .fn _ => true
  | k => k.opens

/-- A token with which an operand can begin. -/
def TK.begins : TK → Bool
  | .lparen | .kNot | .fn _ | .field | .arith .sub => true
  | k => isLitKind k

/-- What the tokens `T` of a text give. -/
structure Supply (S : Stock) (E : Prop) (T : List Token) : Prop where
  eof : TokMade S eofTok
  tok : ∀ t ∈ T, TokMade S t
  kind : ∀ t ∈ T, S.kind t.kind
  gap : ∀ pre s : List Token, T = pre ++ s → (∀ t, pre.getLast? = some t → t.kind.awaits = true) →
    (∀ t, s.head? = some t → t.kind.begins = false) → E
  skipTo : ∀ f x y post, f :: x :: y :: post <:+ T → f.kind = .field → isNumKind x.kind = true →
    isNumKind y.kind = true → S.kind .kTo
  skipIn : ∀ f x y post, f :: x :: y :: post <:+ T → f.kind = .field → x.kind = .kNot → y.kind = .lparen → S.kind .kIn
  upper : ∀ ctx (s : RState), s.toks <:+ T → (isNumKind s.la = true ∨ ∃ pre x, T = pre ++ x :: s.toks ∧ x.kind = .kTo) →
    ∀ v, convertValue (rUpper ctx s).1.2 (tokType (rUpper ctx s).1.1) = .ok v → S.bound (tokType (rUpper ctx s).1.1) v

/-- The tokens left are the rest of the text. -/
def RState.Rest (T : List Token) (s : RState) : Prop := s.toks <:+ T

/-- The tokens left are the rest of the text, and an operand may be expected here. -/
def RState.Spot (T : List Token) (s : RState) : Prop :=
  ∃ pre, T = pre ++ s.toks ∧ ∀ t, pre.getLast? = some t → t.kind.awaits = true

variable {T : List Token}

theorem spot_rest {s : RState} (h : s.Spot T) : s.Rest T := by
  obtain ⟨pre, h, _⟩ := h
  exact ⟨pre, h.symm⟩

theorem rest_take {s : RState} (h : s.Rest T) : s.take.Rest T := (List.tail_suffix _).trans h
theorem rest_consume {s : RState} (h : s.Rest T) : s.consume.Rest T := (List.tail_suffix _).trans h
theorem rest_report {s : RState} (h : s.Rest T) : s.report.Rest T := by
  unfold RState.Rest; rw [report_toks]; exact h

theorem skip_suffix (stop : TK → Bool) : (ts : List Token) → (skipUntil stop ts).2 <:+ ts
  | [] => List.suffix_refl _
  | t :: ts => by
    unfold skipUntil
    split
    · exact List.suffix_refl _
    · exact (skip_suffix stop ts).trans (List.suffix_cons _ _)

theorem rest_fail {ctx : List Frame} {st : Nat} {s : RState} (h : s.Rest T) : (failAt ctx st s).2.Rest T := by
  have h := rest_report h
  unfold failAt recover RState.Rest
  simp only
  split
  · exact (skip_suffix _ _).trans (rest_consume h)
  · exact (skip_suffix _ _).trans h

theorem rest_match {want after : TK → Bool} {s : RState} {x : List Token × RState} (h : s.Rest T)
    (hm : matchTok want after s = some x) : x.2.Rest T := by
  unfold matchTok at hm
  split at hm
  · cases hm; exact rest_take h
  · split at hm
    · cases hm; exact rest_take (rest_consume (rest_report h))
    · split at hm <;> cases hm
      exact rest_report h

theorem rest_sync {want : TK → Bool} {s s' : RState} (h : s.Rest T) (hs : syncTok want s = some s') : s'.Rest T := by
  unfold syncTok at hs
  split at hs
  · cases hs; exact h
  · split at hs
    · cases hs; exact h
    · split at hs <;> cases hs
      exact rest_consume (rest_report h)

theorem head_cons {s : RState} {k : TK} (h : s.la = k) (hk : k ≠ .eof) : ∃ r, s.toks = s.head :: r ∧ s.head.kind = k := by
  unfold RState.la RState.head at h
  unfold RState.head
  cases e : s.toks with
  | nil => rw [e] at h; exact absurd h.symm hk
  | cons t ts => rw [e] at h; exact ⟨ts, rfl, h⟩

theorem la2_cons {s : RState} {k : TK} (h : s.la2 = k) (hk : k ≠ .eof) : ∃ t u r, s.toks = t :: u :: r ∧ u.kind = k := by
  unfold RState.la2 at h
  match e : s.toks with
  | [] => rw [e] at h; exact absurd h.symm hk
  | [_] => rw [e] at h; exact absurd h.symm hk
  | t :: u :: r => rw [e] at h; exact ⟨t, u, r, rfl, h⟩

/-- After a token that has been taken. -/
theorem spot_take {s : RState} (h : s.Rest T) (hk : s.la.awaits = true) : s.take.Spot T := by
  obtain ⟨r, e, _⟩ := head_cons (s := s) rfl (by rintro e; rw [e] at hk; cases hk)
  obtain ⟨pre, hp⟩ := h
  refine ⟨pre ++ [s.head], ?_, ?_⟩
  · rw [← hp]; simp [RState.take, RState.reportMatch, RState.consume, e]
  · intro t ht
    rw [List.getLast?_concat] at ht
    cases ht
    exact hk

/-- After an opening parenthesis, taken or supplied. -/
theorem spot_open {s : RState} {x : List Token × RState} (h : s.Spot T)
    (hm : matchTok (· == .lparen) inListKind s = some x) : x.2.Spot T := by
  unfold matchTok at hm
  split at hm
  · rename_i hk
    cases hm
    exact spot_take (spot_rest h) (by rw [beq_iff_eq.1 hk]; rfl)
  · split at hm
    · rename_i hk
      cases hm
      obtain ⟨t, u, r, e, hu⟩ := la2_cons (beq_iff_eq.1 hk) (by decide)
      refine spot_take (rest_consume (rest_report (spot_rest h))) ?_
      have : s.report.consume.la = .lparen := by
        unfold RState.la RState.head RState.consume
        simp only [report_toks, e, List.tail_cons, hu]
      rw [this]; rfl
    · split at hm <;> cases hm
      obtain ⟨pre, h1, h2⟩ := h
      exact ⟨pre, by rw [report_toks]; exact h1, h2⟩

/-- Before an item of a list. -/
theorem spot_sync (hT : ∀ t ∈ T, t.kind ≠ .eof) {s s' : RState} (h : s.Spot T) (hs : syncTok inListKind s = some s') :
    s'.Spot T := by
  unfold syncTok at hs
  split at hs
  · cases hs; exact h
  · split at hs
    · cases hs; exact h
    · rename_i hn
      split at hs <;> cases hs
      rename_i h2
      obtain ⟨t, u, r, e, hu⟩ := la2_cons (s := s) rfl (by intro e; rw [e] at h2; cases h2)
      obtain ⟨pre, h1, hp⟩ := h
      have hm : t ∈ T := by rw [h1, e]; simp
      have ht := hT t hm
      have hn : inListKind t.kind = false := by
        have : s.la = t.kind := by unfold RState.la RState.head; rw [e]
        rw [this] at hn
        simpa using hn
      refine ⟨pre ++ [t], ?_, ?_⟩
      · rw [h1]; simp [RState.reportMatch, RState.consume, report_toks, e]
      · intro w hw
        rw [List.getLast?_concat] at hw
        cases hw
        cases hk : t.kind <;> rw [hk] at hn ht <;> first | rfl | (cases hn; done) | exact absurd rfl ht

theorem rest_head {s : RState} (H : Supply S E T) (h : s.Rest T) : TokMade S s.head := by
  unfold RState.head
  cases e : s.toks with
  | nil => exact H.eof
  | cons t ts => exact H.tok t (h.subset (by rw [e]; simp))

theorem rest_kind {s : RState} (H : Supply S E T) (h : s.Rest T) {k : TK} (hk : s.la = k) (hn : k ≠ .eof) : S.kind k := by
  obtain ⟨r, e, e2⟩ := head_cons hk hn
  rw [← e2]
  exact H.kind _ (h.subset (by rw [e]; simp))

theorem spot_gap {s : RState} (H : Supply S E T) (h : s.Spot T) (hb : s.la.begins = false) : E := by
  obtain ⟨pre, h1, h2⟩ := h
  refine H.gap pre s.toks h1 h2 fun t ht => ?_
  unfold RState.la RState.head at hb
  cases e : s.toks with
  | nil => rw [e] at ht; cases ht
  | cons u us => rw [e] at ht hb; cases ht; exact hb

theorem rest_upper {ctx : List Frame} {s : RState} (h : s.Rest T) : (rUpper ctx s).2.Rest T := by
  unfold rUpper
  cases hm : matchTok isNumKind (lookAfter (.ops :: ctx)) s with
  | none => exact rest_fail h
  | some x => exact rest_match h hm

/-- A name whose next token is a number. -/
theorem range_over {ctx : List Frame} {t : Token} {s : RState} (H : Supply S E T) (h : s.Rest T)
    (hx : t :: s.toks <:+ T) (ht : t.kind = .field) (hn : isNumKind s.la = true) :
    OverR S E (rRange ctx t s).1 ∧ (rRange ctx t s).2.2.Rest T := by
  obtain ⟨r, e, e1⟩ := head_cons (s := s) rfl (by intro e; rw [e] at hn; cases hn)
  have hf : S.field t.text := (H.tok t (hx.subset (by simp))).1 ht
  have htoks : s.take.toks = r := by simp [RState.take, RState.reportMatch, RState.consume, e]
  unfold rRange
  cases hm : matchTok (· == .kTo) isNumKind s.take with
  | none => exact ⟨⟨hf, rest_head H h, nofun⟩, rest_fail (rest_take h)⟩
  | some x =>
    have h1 := rest_match (rest_take h) hm
    refine ⟨⟨hf, rest_head H h, ?_⟩, rest_upper h1⟩
    intro u y huy
    have huy := Option.some.inj huy
    unfold matchTok at hm
    split at hm
    · rename_i hk
      cases hm
      have hk := beq_iff_eq.1 hk
      obtain ⟨r2, e2, e3⟩ := head_cons hk (by decide)
      refine ⟨rest_kind H (rest_take h) hk (by decide), ?_⟩
      obtain ⟨pre, hpre⟩ := rest_take h
      have := H.upper ctx s.take.take h1 (.inr ⟨pre, s.take.head, by
        have ht2 : s.take.take.toks = r2 := by
          show s.take.toks.tail = r2
          rw [e2]; rfl
        rw [← hpre, ht2, ← e2], e3⟩)
      rw [huy] at this
      exact this
    · split at hm
      · rename_i hk
        cases hm
        obtain ⟨a, b, r2, e2, e3⟩ := la2_cons (beq_iff_eq.1 hk) (by decide)
        obtain ⟨pre, hpre⟩ := rest_take h
        rw [e2] at hpre
        refine ⟨by rw [← e3]; exact H.kind b (by rw [← hpre]; simp), ?_⟩
        have := H.upper ctx s.take.report.consume.take h1 (.inr ⟨pre ++ [a], b, by
          rw [← hpre]
          have : s.take.report.consume.take.toks = r2 := by
            show s.take.report.toks.tail.tail = r2
            rw [report_toks, e2]; rfl
          rw [this]; simp, e3⟩)
        rw [huy] at this
        exact this
      · split at hm
        case isFalse => cases hm
        rename_i hk
        cases hm
        obtain ⟨r2, e2, e3⟩ := head_cons (s := s.take) rfl (by intro e; rw [e] at hk; cases hk)
        refine ⟨H.skipTo t s.head s.take.head r2 ?_ ht (by rw [← e1] at hn; exact hn) (by rw [← e3] at hk; exact hk), ?_⟩
        · rw [← e2, htoks, ← e]; exact hx
        · have := H.upper ctx s.take.report h1 (.inl (by
            have : s.take.report.la = s.take.la := by unfold RState.la RState.head; rw [report_toks]
            rw [this]; exact hk))
          rw [huy] at this
          exact this

theorem over_mkR {s : RState} (H : Supply S E T) (h : s.Rest T) {b : BinTok} (hb : binTok s.la = some b) {l r : RTree}
    (hl : OverR S E l) (hr : OverR S E r) : OverR S E (b.mkR l r) := by
  have hn : s.la ≠ .eof := by intro e; rw [e] at hb; cases hb
  have := rest_kind H h rfl hn
  cases hk : s.la <;> rw [hk] at hb this <;> cases hb <;> exact ⟨this, hl, hr⟩

theorem bin_awaits {k : TK} {b : BinTok} (hb : binTok k = some b) : k.awaits = true := by
  cases k <;> first | rfl | cases hb

theorem recovery_over (H : Supply S E T) (hT : ∀ t ∈ T, t.kind ≠ .eof) (f : Nat) :
    (∀ p ctx s x, rExpr f p ctx s = some x → s.Spot T → OverR S E x.1 ∧ x.2.Rest T) ∧
    (∀ ctx s x, rPrimary f ctx s = some x → s.Spot T → OverR S E x.1 ∧ x.2.2.Rest T) ∧
    (∀ ctx t s x, rField f ctx t s = some x → t.kind = .field → t :: s.toks <:+ T → OverR S E x.1 ∧ x.2.2.Rest T) ∧
    (∀ p ctx l s x, rLoop f p ctx l s = some x → OverR S E l → s.Rest T → OverR S E x.1 ∧ x.2.Rest T) ∧
    (∀ ctx s x, rWordlist f ctx s = some x → s.Spot T →
      (x.1 = .complete → x.2.1 ≠ []) ∧ x.1 ≠ .absent ∧ OverRs S E x.2.1 ∧ x.2.2.Rest T) ∧
    (∀ ctx s x, rMore f ctx s = some x → s.Rest T → x.1 ≠ .absent ∧ OverRs S E x.2.1 ∧ x.2.2.Rest T) := by
  induction f with
  | zero => refine ⟨?_, ?_, ?_, ?_, ?_, ?_⟩ <;> intros <;> simp_all [rExpr, rPrimary, rField, rLoop, rWordlist, rMore]
  | succ f ih =>
    obtain ⟨hE, hP, hF, hL, hW, hM⟩ := ih
    refine ⟨?_, ?_, ?_, ?_, ?_, ?_⟩
    · intro p ctx s x h ha
      rw [rExpr_succ] at h
      cases e : rPrimary f ctx s with
      | none => rw [e] at h; cases h
      | some y =>
        obtain ⟨t, b, s'⟩ := y
        have h1 := hP _ _ _ e ha
        rw [e] at h
        cases b with
        | true => exact hL _ _ _ _ _ h h1.1 h1.2
        | false => cases h; exact h1
    · intro ctx s x h hsp
      rw [rPrimary_succ] at h
      have ha := spot_rest hsp
      have ht := rest_take ha
      have hh := rest_head H ha
      cases hk : s.la with
      | lparen =>
        have hst := spot_take ha (by rw [hk]; rfl)
        rw [hk] at h
        simp only at h
        cases e : rExpr f 0 (.rparen :: ctx) s.take with
        | none => rw [e] at h; cases h
        | some y =>
          have h1 := hE _ _ _ _ e hst
          rw [e] at h
          simp only at h
          cases hm : matchTok (· == .rparen) (lookAfter (.ops :: ctx)) y.2 with
          | none => rw [hm] at h; cases h; exact ⟨h1.1, rest_fail h1.2⟩
          | some z => rw [hm] at h; cases h; exact ⟨h1.1, rest_match h1.2 hm⟩
      | kNot =>
        have hst := spot_take ha (by rw [hk]; rfl)
        have hkd := rest_kind H ha hk (by decide)
        rw [hk] at h
        simp only at h
        cases e : rExpr f 15 (.ops :: ctx) s.take with
        | none => rw [e] at h; cases h
        | some y =>
          rw [e] at h; cases h
          have := hE _ _ _ y e hst
          exact ⟨⟨hkd, this.1⟩, this.2⟩
      | arith op =>
        have hst := spot_take ha (by rw [hk]; rfl)
        have hkd := rest_kind H ha hk (by simp)
        rw [hk] at h
        cases op with
        | sub =>
          simp only at h
          split at h
          · cases e : rExpr f 13 (.ops :: ctx) s.take with
            | none => rw [e] at h; cases h
            | some y =>
              rw [e] at h; cases h
              have := hE _ _ _ y e hst
              exact ⟨⟨hkd, this.1⟩, this.2⟩
          · cases h; exact ⟨trivial, rest_fail ha⟩
        | _ => cases h; exact ⟨⟨hh, fun _ => spot_gap H hsp (by rw [hk]; rfl)⟩, ha⟩
      | fn g =>
        have hst := spot_take ha (by rw [hk]; rfl)
        have hkd := rest_kind H ha hk (by simp)
        rw [hk] at h
        simp only at h
        cases e : rWordlist f (.ops :: ctx) s.take with
        | none => rw [e] at h; cases h
        | some y =>
          rw [e] at h; cases h
          have := hW _ _ y e hst
          exact ⟨⟨hkd, this.1, this.2.2.1⟩, this.2.2.2⟩
      | field =>
        obtain ⟨r, e1, e2⟩ := head_cons hk (by decide)
        have hx : s.head :: s.take.toks <:+ T := by
          have : s.take.toks = r := by show s.toks.tail = r; rw [e1]; rfl
          rw [this, ← e1]; exact ha
        rw [hk] at h
        simp only at h
        split at h
        · rename_i hn
          cases h; exact range_over H ht hx e2 hn
        · exact hF _ _ _ _ h e2 hx
      | integer | decimal | version | kTrue | kFalse | word | date | datetime =>
        rw [hk] at h; cases h; exact ⟨⟨hh, nofun⟩, ht⟩
      | comma | kIn | kTo | kAnd | kOr | cAll | cAny | cmp _ | rparen | eof =>
        rw [hk] at h; cases h; exact ⟨⟨hh, fun _ => spot_gap H hsp (by rw [hk]; rfl)⟩, ha⟩
    · intro ctx t s x h htk hx
      have ha : s.Rest T := (List.suffix_cons _ _).trans hx
      have ht := rest_take ha
      have htm := H.tok t (hx.subset (by simp))
      have hf := htm.1 htk
      rw [rField_succ] at h
      cases hk : s.la with
      | kNot =>
        have hkd := rest_kind H ha hk (by decide)
        rw [hk] at h
        simp only at h
        cases hm : matchTok (· == .kIn) (· == .lparen) s.take with
        | none => rw [hm] at h; cases h; exact ⟨⟨by simp, hf, fun _ => hkd, trivial⟩, rest_fail ht⟩
        | some y =>
          rw [hm] at h
          simp only at h
          cases e : rWordlist f (.ops :: ctx) y.2 with
          | none => rw [e] at h; cases h
          | some z =>
            rw [e] at h; cases h
            have key : S.kind .kIn ∧ y.2.Spot T := by
              unfold matchTok at hm
              split at hm
              · rename_i hi
                cases hm
                have hi := beq_iff_eq.1 hi
                exact ⟨rest_kind H ht hi (by decide), spot_take ht (by rw [hi]; rfl)⟩
              · split at hm
                · rename_i hi
                  cases hm
                  obtain ⟨a, b, r2, e2, e3⟩ := la2_cons (beq_iff_eq.1 hi) (by decide)
                  refine ⟨by rw [← e3]; exact H.kind b (ht.subset (by rw [e2]; simp)), ?_⟩
                  refine spot_take (rest_consume (rest_report ht)) ?_
                  have : s.take.report.consume.la = .kIn := by
                    unfold RState.la RState.head RState.consume
                    simp only [report_toks, e2, List.tail_cons, e3]
                  rw [this]; rfl
                · split at hm <;> cases hm
                  rename_i hi
                  have hi := beq_iff_eq.1 hi
                  obtain ⟨r1, e1, e1'⟩ := head_cons hk (by decide)
                  obtain ⟨r2, e2, e2'⟩ := head_cons hi (by decide)
                  have e3 : s.take.toks = r1 := by show s.toks.tail = r1; rw [e1]; rfl
                  have hx' : t :: s.head :: s.take.head :: r2 <:+ T := by rw [← e2, e3, ← e1]; exact hx
                  refine ⟨H.skipIn t s.head s.take.head r2 hx' htk e1' e2', ?_⟩
                  obtain ⟨pre, hpre⟩ := hx
                  refine ⟨pre ++ [t, s.head], ?_, ?_⟩
                  · rw [report_toks, ← hpre, e3, e1]; simp
                  · intro w hw
                    simp at hw
                    rw [← hw, e1']; rfl
            have := hW _ _ z e key.2
            exact ⟨⟨fun _ => key.1, hf, fun _ => hkd, this.2.2.1⟩, this.2.2.2⟩
      | kIn =>
        have hst := spot_take ha (by rw [hk]; rfl)
        have hkd := rest_kind H ha hk (by decide)
        rw [hk] at h
        simp only at h
        cases e : rWordlist f (.ops :: ctx) s.take with
        | none => rw [e] at h; cases h
        | some y =>
          rw [e] at h; cases h
          have := hW _ _ y e hst
          exact ⟨⟨fun _ => hkd, hf, nofun, this.2.2.1⟩, this.2.2.2⟩
      | cAll =>
        have hst := spot_take ha (by rw [hk]; rfl)
        have hkd := rest_kind H ha hk (by decide)
        rw [hk] at h
        simp only at h
        cases e : rWordlist f (.ops :: ctx) s.take with
        | none => rw [e] at h; cases h
        | some y =>
          rw [e] at h; cases h
          have := hW _ _ y e hst
          exact ⟨⟨hkd, hf, this.2.2.1⟩, this.2.2.2⟩
      | cAny =>
        have hst := spot_take ha (by rw [hk]; rfl)
        have hkd := rest_kind H ha hk (by decide)
        rw [hk] at h
        simp only at h
        cases e : rWordlist f (.ops :: ctx) s.take with
        | none => rw [e] at h; cases h
        | some y =>
          rw [e] at h; cases h
          have := hW _ _ y e hst
          exact ⟨⟨hkd, hf, this.2.2.1⟩, this.2.2.2⟩
      | _ => rw [hk] at h; cases h; exact ⟨⟨htm, nofun⟩, ha⟩
    · intro p ctx l s x h hl ha
      rw [rLoop_succ] at h
      cases hb : binTok s.la with
      | none => rw [hb] at h; cases h; exact ⟨hl, ha⟩
      | some b =>
        rw [hb] at h
        simp only at h
        split at h
        · cases e : rExpr f (b.prec + 1) (.ops :: ctx) s.take with
          | none => rw [e] at h; cases h
          | some y =>
            rw [e] at h
            have h1 := hE _ _ _ _ e (spot_take ha (bin_awaits hb))
            exact hL _ _ _ _ _ h (over_mkR H ha hb hl h1.1) h1.2
        · cases h; exact ⟨hl, ha⟩
    · intro ctx s x h hsp
      have ha := spot_rest hsp
      rw [rWordlist_succ] at h
      cases hm : matchTok (· == .lparen) inListKind s with
      | none =>
        rw [hm] at h; cases h
        refine ⟨?_, ?_, trivial, rest_fail ha⟩
        · simp only; split <;> simp
        · simp only; split <;> simp
      | some y =>
        have h0 := spot_open hsp hm
        rw [hm] at h
        simp only at h
        cases hs : syncTok inListKind y.2 with
        | none => rw [hs] at h; cases h; exact ⟨by simp, by simp, trivial, rest_fail (spot_rest h0)⟩
        | some s2 =>
          rw [hs] at h
          simp only at h
          cases e : rExpr f 0 (.items :: ctx) s2 with
          | none => rw [e] at h; cases h
          | some z =>
            have h3 := hE _ _ _ _ e (spot_sync hT h0 hs)
            rw [e] at h
            simp only at h
            cases hs2 : syncTok (Frame.has .items) z.2 with
            | none => rw [hs2] at h; cases h; exact ⟨by simp, by simp, ⟨h3.1, trivial⟩, rest_fail h3.2⟩
            | some s4 =>
              rw [hs2] at h
              simp only at h
              cases e5 : rMore f ctx s4 with
              | none => rw [e5] at h; cases h
              | some w =>
                rw [e5] at h; cases h
                have h4 := hM _ _ w e5 (rest_sync h3.2 hs2)
                exact ⟨by simp, h4.1, ⟨h3.1, h4.2.1⟩, h4.2.2⟩
    · intro ctx s x h ha
      rw [rMore_succ] at h
      have h0 := rest_take ha
      split at h
      · rename_i hc
        have hst := spot_take ha (by rw [hc]; rfl)
        cases hs : syncTok inListKind s.take with
        | none => rw [hs] at h; cases h; exact ⟨by simp, trivial, rest_fail h0⟩
        | some s2 =>
          rw [hs] at h
          simp only at h
          cases e : rExpr f 0 (.items :: ctx) s2 with
          | none => rw [e] at h; cases h
          | some z =>
            have h3 := hE _ _ _ _ e (spot_sync hT hst hs)
            rw [e] at h
            simp only at h
            cases hs2 : syncTok (Frame.has .items) z.2 with
            | none => rw [hs2] at h; cases h; exact ⟨by simp, ⟨h3.1, trivial⟩, rest_fail h3.2⟩
            | some s4 =>
              rw [hs2] at h
              simp only at h
              cases e5 : rMore f ctx s4 with
              | none => rw [e5] at h; cases h
              | some w =>
                rw [e5] at h; cases h
                have h4 := hM _ _ w e5 (rest_sync h3.2 hs2)
                exact ⟨h4.1, ⟨h3.1, h4.2.1⟩, h4.2.2⟩
      · cases hm : matchTok (· == .rparen) (lookAfter ctx) s with
        | none => rw [hm] at h; cases h; exact ⟨by simp, trivial, rest_fail ha⟩
        | some y => rw [hm] at h; cases h; exact ⟨by simp, trivial, rest_match ha hm⟩

/-- The node of any text is made of what the text offers. -/
theorem parseAny_made {s : JStr} (H : Supply S E (lex s)) (hT : ∀ t ∈ lex s, t.kind ≠ .eof) (hE : E → Omit S df) {n : Node}
    (h : parseAny s df = .ok n) : Made S n := by
  unfold parseAny at h
  cases hp : rParse (lex s) with
  | none => rw [hp] at h; cases h
  | some x =>
    obtain ⟨t, y⟩ := x
    rw [hp] at h
    refine listenR_made hE ?_ n h
    unfold rParse at hp
    cases hx : rExpr (parseFuel (lex s)) 0 [.eof] (.init (lex s)) with
    | none => rw [hx] at hp; cases hp
    | some z =>
      rw [hx] at hp
      have h1 := ((recovery_over H hT _).1 _ _ _ _ hx ⟨[], rfl, by simp⟩).1
      simp only at hp
      split at hp <;> cases hp <;> exact h1

end BoolParser
