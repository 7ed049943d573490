import Verif.Lemmas.RecoveryFail
import Verif.Lemmas.Made
import Verif.Lemmas.Texts
/-!
# Where the parts of the node of any text come from

`RTree.From P`: every part of a repaired parse tree comes from a token that satisfies `P`. Only the upper bound of a
range may be put together from several tokens. The node built from such a tree relates to itself (`Verif/Lemmas/Sim.lean`).
-/

namespace BoolParser

section
variable (P : Token → Prop)

mutual
def RTree.From : RTree → Prop
  | .paren t => t.From
  | .not_ t => t.From
  | .neg t => t.From
  | .cmp _ l r => l.From ∧ r.From
  | .arith op l r => (∃ t, P t ∧ t.kind = .arith op) ∧ l.From ∧ r.From
  | .bin _ l r => l.From ∧ r.From
  | .func f _ es => (∃ t, P t ∧ t.kind = .fn f) ∧ fromAll es
  | .types t _ => P t
  | .to_ f _ _ => P f ∧ f.kind = .field
  | .in_ f _ _ es => (P f ∧ f.kind = .field) ∧ fromAll es
  | .array f _ _ es => (P f ∧ f.kind = .field) ∧ fromAll es
  | .bad => True
def fromAll : List RTree → Prop
  | [] => True
  | t :: ts => t.From ∧ fromAll ts
end

end

variable {P : Token → Prop}

theorem from_mkR {t : Token} (ht : P t) {b : BinTok} (hb : binTok t.kind = some b) {l r : RTree} (hl : l.From P)
    (hr : r.From P) : (b.mkR l r).From P := by
  cases b with
  | arith op =>
    refine ⟨⟨t, ht, ?_⟩, hl, hr⟩
    cases hk : t.kind <;> rw [hk] at hb <;> cases hb
    rfl
  | _ => exact ⟨hl, hr⟩

theorem range_from {ctx : List Frame} {t : Token} {s : RState} (h : s.All P) (he : P eofTok) (ht : P t ∧ t.kind = .field) :
    (rRange ctx t s).1.From P ∧ (rRange ctx t s).2.2.All P := by
  unfold rRange
  cases hm : matchTok (· == .kTo) isNumKind s.take with
  | none => exact ⟨ht, (fail_all (all_take h) he).2⟩
  | some x => exact ⟨ht, upper_all (match_all (all_take h) he hm).2 he⟩

theorem recovery_from (he : P eofTok) (f : Nat) :
    (∀ p ctx s x, rExpr f p ctx s = some x → s.All P → x.1.From P ∧ x.2.All P) ∧
    (∀ ctx s x, rPrimary f ctx s = some x → s.All P → x.1.From P ∧ x.2.2.All P) ∧
    (∀ ctx t s x, rField f ctx t s = some x → P t ∧ t.kind = .field → s.All P → x.1.From P ∧ x.2.2.All P) ∧
    (∀ p ctx l s x, rLoop f p ctx l s = some x → l.From P → s.All P → x.1.From P ∧ x.2.All P) ∧
    (∀ ctx s x, rWordlist f ctx s = some x → s.All P → fromAll P x.2.1 ∧ x.2.2.All P) ∧
    (∀ ctx s x, rMore f ctx s = some x → s.All P → fromAll P x.2.1 ∧ x.2.2.All P) := by
  induction f with
  | zero => refine ⟨?_, ?_, ?_, ?_, ?_, ?_⟩ <;> intros <;> simp_all [rExpr, rPrimary, rField, rLoop, rWordlist, rMore]
  | succ f ih =>
    obtain ⟨hE, hP, hF, hL, hW, hM⟩ := ih
    refine ⟨?_, ?_, ?_, ?_, ?_, ?_⟩
    · intro p ctx s x h ha
      rw [rExpr_succ] at h
      cases e : rPrimary f ctx s with
      | none => rw [e] at h; cases h
      | some y =>
        obtain ⟨t, b, s'⟩ := y
        have h1 := hP _ _ _ e ha
        rw [e] at h
        cases b with
        | true => exact hL _ _ _ _ _ h h1.1 h1.2
        | false => cases h; exact h1
    · intro ctx s x h ha
      rw [rPrimary_succ] at h
      have ht := all_take ha
      have hh := all_head ha he
      cases hk : s.la with
      | lparen =>
        rw [hk] at h
        simp only at h
        cases e : rExpr f 0 (.rparen :: ctx) s.take with
        | none => rw [e] at h; cases h
        | some y =>
          have h1 := hE _ _ _ _ e ht
          rw [e] at h
          simp only at h
          cases hm : matchTok (· == .rparen) (lookAfter (.ops :: ctx)) y.2 with
          | none => rw [hm] at h; cases h; exact ⟨h1.1, (fail_all h1.2 he).2⟩
          | some z => rw [hm] at h; cases h; exact ⟨h1.1, (match_all h1.2 he hm).2⟩
      | kNot =>
        rw [hk] at h
        simp only at h
        cases e : rExpr f 15 (.ops :: ctx) s.take with
        | none => rw [e] at h; cases h
        | some y => rw [e] at h; cases h; exact hE _ _ _ y e ht
      | arith op =>
        rw [hk] at h
        cases op with
        | sub =>
          simp only at h
          split at h
          · cases e : rExpr f 13 (.ops :: ctx) s.take with
            | none => rw [e] at h; cases h
            | some y => rw [e] at h; cases h; exact hE _ _ _ y e ht
          · cases h; exact ⟨trivial, (fail_all ha he).2⟩
        | _ => cases h; exact ⟨hh, ha⟩
      | fn g =>
        rw [hk] at h
        simp only at h
        cases e : rWordlist f (.ops :: ctx) s.take with
        | none => rw [e] at h; cases h
        | some y =>
          rw [e] at h; cases h
          have := hW _ _ y e ht
          exact ⟨⟨⟨s.head, hh, hk⟩, this.1⟩, this.2⟩
      | field =>
        rw [hk] at h
        simp only at h
        split at h
        · cases h; exact range_from ht he ⟨hh, hk⟩
        · exact hF _ _ _ _ h ⟨hh, hk⟩ ht
      | _ => rw [hk] at h; cases h; first | exact ⟨hh, ht⟩ | exact ⟨hh, ha⟩
    · intro ctx t s x h hpt ha
      have ht := all_take ha
      rw [rField_succ] at h
      cases hk : s.la with
      | kNot =>
        rw [hk] at h
        simp only at h
        cases hm : matchTok (· == .kIn) (· == .lparen) s.take with
        | none => rw [hm] at h; cases h; exact ⟨⟨hpt, trivial⟩, (fail_all ht he).2⟩
        | some y =>
          rw [hm] at h
          simp only at h
          cases e : rWordlist f (.ops :: ctx) y.2 with
          | none => rw [e] at h; cases h
          | some z =>
            rw [e] at h; cases h
            have := hW _ _ z e (match_all ht he hm).2
            exact ⟨⟨hpt, this.1⟩, this.2⟩
      | kIn =>
        rw [hk] at h
        simp only at h
        cases e : rWordlist f (.ops :: ctx) s.take with
        | none => rw [e] at h; cases h
        | some y => rw [e] at h; cases h; exact ⟨⟨hpt, (hW _ _ y e ht).1⟩, (hW _ _ y e ht).2⟩
      | cAll =>
        rw [hk] at h
        simp only at h
        cases e : rWordlist f (.ops :: ctx) s.take with
        | none => rw [e] at h; cases h
        | some y => rw [e] at h; cases h; exact ⟨⟨hpt, (hW _ _ y e ht).1⟩, (hW _ _ y e ht).2⟩
      | cAny =>
        rw [hk] at h
        simp only at h
        cases e : rWordlist f (.ops :: ctx) s.take with
        | none => rw [e] at h; cases h
        | some y => rw [e] at h; cases h; exact ⟨⟨hpt, (hW _ _ y e ht).1⟩, (hW _ _ y e ht).2⟩
      | _ => rw [hk] at h; cases h; exact ⟨hpt.1, ha⟩
    · intro p ctx l s x h hl ha
      rw [rLoop_succ] at h
      cases hb : binTok s.la with
      | none => rw [hb] at h; cases h; exact ⟨hl, ha⟩
      | some b =>
        rw [hb] at h
        simp only at h
        split at h
        · cases e : rExpr f (b.prec + 1) (.ops :: ctx) s.take with
          | none => rw [e] at h; cases h
          | some y =>
            rw [e] at h
            have h1 := hE _ _ _ _ e (all_take ha)
            exact hL _ _ _ _ _ h (from_mkR (all_head ha he) hb hl h1.1) h1.2
        · cases h; exact ⟨hl, ha⟩
    · intro ctx s x h ha
      rw [rWordlist_succ] at h
      cases hm : matchTok (· == .lparen) inListKind s with
      | none => rw [hm] at h; cases h; exact ⟨trivial, (fail_all ha he).2⟩
      | some y =>
        have h0 := (match_all ha he hm).2
        rw [hm] at h
        simp only at h
        cases hs : syncTok inListKind y.2 with
        | none => rw [hs] at h; cases h; exact ⟨trivial, (fail_all h0 he).2⟩
        | some s2 =>
          rw [hs] at h
          simp only at h
          cases e : rExpr f 0 (.items :: ctx) s2 with
          | none => rw [e] at h; cases h
          | some z =>
            have h3 := hE _ _ _ _ e (sync_all h0 hs)
            rw [e] at h
            simp only at h
            cases hs2 : syncTok (Frame.has .items) z.2 with
            | none => rw [hs2] at h; cases h; exact ⟨⟨h3.1, trivial⟩, (fail_all h3.2 he).2⟩
            | some s4 =>
              rw [hs2] at h
              simp only at h
              cases e5 : rMore f ctx s4 with
              | none => rw [e5] at h; cases h
              | some w =>
                rw [e5] at h; cases h
                have h4 := hM _ _ w e5 (sync_all h3.2 hs2)
                exact ⟨⟨h3.1, h4.1⟩, h4.2⟩
    · intro ctx s x h ha
      rw [rMore_succ] at h
      have h0 := all_take ha
      split at h
      · cases hs : syncTok inListKind s.take with
        | none => rw [hs] at h; cases h; exact ⟨trivial, (fail_all h0 he).2⟩
        | some s2 =>
          rw [hs] at h
          simp only at h
          cases e : rExpr f 0 (.items :: ctx) s2 with
          | none => rw [e] at h; cases h
          | some z =>
            have h3 := hE _ _ _ _ e (sync_all h0 hs)
            rw [e] at h
            simp only at h
            cases hs2 : syncTok (Frame.has .items) z.2 with
            | none => rw [hs2] at h; cases h; exact ⟨⟨h3.1, trivial⟩, (fail_all h3.2 he).2⟩
            | some s4 =>
              rw [hs2] at h
              simp only at h
              cases e5 : rMore f ctx s4 with
              | none => rw [e5] at h; cases h
              | some w =>
                rw [e5] at h; cases h
                have h4 := hM _ _ w e5 (sync_all h3.2 hs2)
                exact ⟨⟨h3.1, h4.1⟩, h4.2⟩
      · cases hm : matchTok (· == .rparen) (lookAfter ctx) s with
        | none => rw [hm] at h; cases h; exact ⟨trivial, (fail_all ha he).2⟩
        | some y => rw [hm] at h; cases h; exact ⟨trivial, (match_all ha he hm).2⟩

/-! ## The listener -/

variable {V : Vocab} {df : Option JStr}

/-- The names, values, functions and operators a token gives relate to themselves. -/
structure TokSelf (V : Vocab) (t : Token) : Prop where
  field : t.kind = .field → V.field t.text t.text
  lit : ∀ v, convertValue t.text (tokType t) = .ok v → V.lit (tokType t) v v
  word : ∀ v, convertValue t.text (tokType t) = .ok v → V.word (tokType t) v v
  lone : ∀ v, convertValue t.text .string = .ok v → V.lone v v
  fn : ∀ f, t.kind = .fn f → V.fn f
  op : ∀ o, t.kind = .arith o → V.op o

/-- The default field and all bounds relate to themselves. -/
structure Selfish (V : Vocab) (df : Option JStr) : Prop where
  bound : ∀ v, V.bound v v
  dflt : ∀ f, df = some f → V.field f f

abbrev SelfTree (V : Vocab) (t : RTree) : Prop := t.From (TokSelf V)
abbrev SelfTrees (V : Vocab) (ts : List RTree) : Prop := fromAll (TokSelf V) ts

def NSelf (V : Vocab) (n : Node) : Prop := NodeRel V n n
def StackSelf (V : Vocab) (st : List Node) : Prop := ∀ n ∈ st, NodeRel V n n
def PairSelf (V : Vocab) (p : Node × NStack) : Prop := NodeRel V p.1 p.1 ∧ StackSelf V p.2

theorem nodesSelf : {ns : List Node} → StackSelf V ns → NodesRel V ns ns
  | [], _ => .nil
  | _ :: _, h => .cons (h _ (by simp)) (nodesSelf fun n hn => h n (by simp [hn]))

theorem stackSelf_cons {n : Node} {st : NStack} (hn : NodeRel V n n) (h : StackSelf V st) : StackSelf V (n :: st) := by
  intro m hm
  rcases List.mem_cons.mp hm with rfl | hm
  · exact hn
  · exact h m hm
theorem stackSelf_top {n : Node} {st : NStack} (h : StackSelf V (n :: st)) : NodeRel V n n := h n (by simp)
theorem stackSelf_tail {n : Node} {st : NStack} (h : StackSelf V (n :: st)) : StackSelf V st :=
  fun m hm => h m (by simp [hm])

theorem yields_true {α : Type} (x : Result α) : Yields (fun _ => True) x := fun _ _ => trivial

theorem yields_of {α : Type} {Q : α → Prop} {x : Result α} (h : ∀ a, x = .ok a → Q a) : Yields Q x := h

theorem dfltSelf (S : Selfish V df) : NodeRel V (.field df) (.field df) := by
  cases df with
  | none => exact .nofield
  | some f => exact .field (S.dflt f rfl)

theorem mapTypes_self (S : Selfish V df) {t : Token} {e : Bool} (h : TokSelf V t) :
    Yields (NSelf V) (mapTypes df t e) := by
  unfold mapTypes
  cases e with
  | true => exact yields_ite (yields_ok (dfltSelf S)) (yields_ok (dfltSelf S))
  | false =>
    split
    · rename_i hk; exact yields_ok (.field (h.field hk))
    · exact yields_bind (yields_of h.lit) fun v hv => yields_ok (.unary hv)

theorem popN_self {st : NStack} (h : StackSelf V st) : Yields (PairSelf V) (popN st) := by
  cases st with
  | nil => exact yields_err _
  | cons n st => exact yields_ok ⟨stackSelf_top h, stackSelf_tail h⟩

mutual
theorem mapNodeR_self (S : Selfish V df) : (t : RTree) → SelfTree V t → ∀ st, StackSelf V st →
    Yields (PairSelf V) (mapNodeR df t st)
  | .types t e, h, st, hs => by
    simp only [mapNodeR]
    exact yields_bind (mapTypes_self S h) fun n hn => yields_ok ⟨hn, hs⟩
  | .func f sh items, h, st, hs => by
    simp only [mapNodeR]
    obtain ⟨⟨t, ht, hk⟩, h⟩ := h
    exact yields_bind (yields_true _) fun _ _ => yields_bind (mapNodesR_self S items h st hs) fun p hp =>
      yields_ok ⟨.func (ht.fn f hk) (nodesSelf hp.1), hp.2⟩
  | .in_ f neg sh items, h, st, hs => by
    simp only [mapNodeR]
    refine yields_bind (yields_true _) fun _ _ => yields_bind (mapNodesR_self S items h.2 st hs) fun p hp =>
      yields_ok ⟨?_, hp.2⟩
    have := NodeRel.inn (h.1.1.field h.1.2) (nodesSelf hp.1)
    cases neg
    · exact this
    · exact .not_ this
  | .to_ f lo hi, h, st, hs => by
    simp only [mapNodeR]
    refine yields_bind (yields_true _) fun a _ => ?_
    split
    · exact yields_err _
    · exact yields_bind (yields_true _) fun b _ => yields_ok ⟨.range (h.1.field h.2) (S.bound _) (S.bound _), hs⟩
  | .cmp op l r, h, st, hs => by
    simp only [mapNodeR]
    refine yields_ite ?_ (yields_ite ?_ ?_)
    · exact yields_bind (mapNodeR_self S l h.1 st hs) fun p hp => yields_bind (popN_self hp.2) fun q hq =>
        yields_ok ⟨.cmp _ _ hp.1 hq.1, hq.2⟩
    · exact yields_bind (mapNodeR_self S r h.2 st hs) fun p hp => yields_bind (popN_self hp.2) fun q hq =>
        yields_ok ⟨.cmp _ _ hq.1 hp.1, hq.2⟩
    · exact yields_bind (mapNodeR_self S r h.2 st hs) fun p hp => yields_bind (mapNodeR_self S l h.1 _ hp.2) fun q hq =>
        yields_ok ⟨.cmp _ _ hq.1 hp.1, hq.2⟩
  | .arith op l r, h, st, hs => by
    simp only [mapNodeR]
    obtain ⟨⟨t, ht, hk⟩, h1, h2⟩ := h
    have ho := ht.op op hk
    refine yields_ite ?_ (yields_ite ?_ (yields_ite ?_ ?_))
    · exact yields_bind (mapNodeR_self S l h1 st hs) fun p hp => yields_bind (mapNodeR_self S r h2 _ hp.2) fun q hq =>
        yields_ok ⟨.arith ho hp.1 hq.1, hq.2⟩
    · exact yields_bind (mapNodeR_self S l h1 st hs) fun p hp => yields_bind (popN_self hp.2) fun q hq =>
        yields_ok ⟨.arith ho hp.1 hq.1, hq.2⟩
    · exact yields_bind (mapNodeR_self S r h2 st hs) fun p hp => yields_bind (popN_self hp.2) fun q hq =>
        yields_ok ⟨.arith ho hq.1 hp.1, hq.2⟩
    · match st, hs with
      | b :: a :: st, hs =>
        exact yields_ok ⟨.arith ho (stackSelf_top (stackSelf_tail hs)) (stackSelf_top hs), stackSelf_tail (stackSelf_tail hs)⟩
      | [_], _ => exact yields_err _
      | [], _ => exact yields_err _
  | .paren _, _, _, _ => by simp only [mapNodeR]; exact yields_err _
  | .not_ _, _, _, _ => by simp only [mapNodeR]; exact yields_err _
  | .neg _, _, _, _ => by simp only [mapNodeR]; exact yields_err _
  | .bin _ _ _, _, _, _ => by simp only [mapNodeR]; exact yields_err _
  | .array _ _ _ _, _, _, _ => by simp only [mapNodeR]; exact yields_err _
  | .bad, _, _, _ => by simp only [mapNodeR]; exact yields_err _
theorem mapNodesR_self (S : Selfish V df) : (ts : List RTree) → SelfTrees V ts → ∀ st, StackSelf V st →
    Yields (fun p => StackSelf V p.1 ∧ StackSelf V p.2) (mapNodesR df ts st)
  | [], _, st, hs => by simp only [mapNodesR]; exact yields_ok ⟨nofun, hs⟩
  | t :: ts, h, st, hs => by
    simp only [mapNodesR]
    exact yields_bind (mapNodeR_self S t h.1 st hs) fun p hp => yields_bind (mapNodesR_self S ts h.2 _ hp.2) fun q hq =>
      yields_ok ⟨stackSelf_cons hp.1 hq.1, hq.2⟩
end

def StateSelf (V : Vocab) (s : LState) : Prop := StackSelf V s.stack ∧ ∀ t, s.last = some t → TokSelf V t

theorem exitMappedR_self (S : Selfish V df) {t : RTree} (h : SelfTree V t) {s : LState} (hs : StateSelf V s) :
    Yields (StateSelf V) (exitMappedR df t s) := by
  unfold exitMappedR
  exact yields_bind (mapNodeR_self S t h _ hs.1) fun p hp => yields_ok ⟨stackSelf_cons hp.1 hp.2, hs.2⟩

theorem exitNegR_self (S : Selfish V df) {e : RTree} (h : SelfTree V e) {s : LState} (hs : StateSelf V s) :
    Yields (StateSelf V) (exitNegR df e s) := by
  have leaf : Yields (StateSelf V) (match (generalizing := false) e with
    | .types t em => do
      let n ← mapTypes df t em
      pure { s with stack := .neg n :: s.stack }
    | _ => .error .classCast : Result LState) := by
    cases e with
    | types u em =>
      exact yields_bind (mapTypes_self S h) fun n hn => yields_ok ⟨stackSelf_cons (n := .neg n) (.neg hn) hs.1, hs.2⟩
    | _ => exact yields_err _
  unfold exitNegR
  simp only
  split
  · rename_i n st e'
    refine yields_ite (yields_ok ?_) leaf
    have hs' : StackSelf V (n :: st) := by rw [← e']; exact hs.1
    exact ⟨stackSelf_cons (n := .neg n) (.neg (stackSelf_top hs')) (stackSelf_tail hs'), hs.2⟩
  · exact leaf

theorem exitArrayR_self (S : Selfish V df) {f : Token} {op : ArrOp} {sh : ListShape} {items : List RTree}
    (h : SelfTrees V items) (hf : V.field f.text f.text) {s : LState} (hs : StateSelf V s) :
    Yields (StateSelf V) (exitArrayR df f op sh items s) := by
  unfold exitArrayR
  exact yields_bind (yields_true _) fun _ _ => yields_bind (mapNodesR_self S items h _ hs.1) fun p hp =>
    yields_ok ⟨stackSelf_cons (n := .array f.text op p.1) (.array _ hf (nodesSelf hp.1)) hp.2, hs.2⟩

theorem exitNot_self {s : LState} (hs : StateSelf V s) : Yields (StateSelf V) (exitNot s) := by
  unfold exitNot
  split
  · rename_i n st e
    have hs' : StackSelf V (n :: st) := by rw [← e]; exact hs.1
    exact yields_ok ⟨stackSelf_cons (n := .not_ n) (.not_ (stackSelf_top hs')) (stackSelf_tail hs'), hs.2⟩
  · split
    · exact yields_err _
    · rename_i t e
      exact yields_bind (yields_of (hs.2 t e).word) fun v hv =>
        yields_ok ⟨stackSelf_cons (n := .not_ (.unary _ v)) (.word hv) (by intro n h; cases h), hs.2⟩

theorem exitBin_self {c : Bool} {s : LState} (hs : StateSelf V s) : Yields (StateSelf V) (exitBin c s) := by
  unfold exitBin
  split
  · rename_i b a st e
    have hs' : StackSelf V (b :: a :: st) := by rw [← e]; exact hs.1
    refine yields_ok ⟨stackSelf_cons ?_ (stackSelf_tail (stackSelf_tail hs')), hs.2⟩
    cases c
    · exact .or_ (stackSelf_top (stackSelf_tail hs')) (stackSelf_top hs')
    · exact .and_ (stackSelf_top (stackSelf_tail hs')) (stackSelf_top hs')
  · exact yields_err _

mutual
theorem walkR_self (S : Selfish V df) : (t : RTree) → SelfTree V t → ∀ s, StateSelf V s →
    Yields (StateSelf V) (walkR df t s)
  | .paren t, h, s, hs => by simp only [walkR]; exact walkR_self S t h s hs
  | .not_ t, h, s, hs => by
    simp only [walkR]
    exact yields_bind (walkR_self S t h s hs) fun s' hs' => exitNot_self hs'
  | .neg t, h, s, hs => by
    simp only [walkR]
    exact yields_bind (walkR_self S t h s hs) fun s' hs' => exitNegR_self S (e := t) h hs'
  | .cmp op l r, h, s, hs => by
    simp only [walkR]
    exact yields_bind (walkR_self S l h.1 s hs) fun s1 h1 => yields_bind (walkR_self S r h.2 s1 h1) fun s2 h2 =>
      exitMappedR_self S (t := .cmp op l r) h h2
  | .arith op l r, h, s, hs => by
    simp only [walkR]
    exact yields_bind (walkR_self S l h.2.1 s hs) fun s1 h1 => yields_bind (walkR_self S r h.2.2 s1 h1) fun s2 h2 =>
      exitMappedR_self S (t := .arith op l r) h h2
  | .bin c l r, h, s, hs => by
    simp only [walkR]
    exact yields_bind (walkR_self S l h.1 s hs) fun s1 h1 => yields_bind (walkR_self S r h.2 s1 h1) fun s2 h2 =>
      exitBin_self h2
  | .func f sh es, h, s, hs => by
    simp only [walkR]
    exact yields_bind (walkAllR_self S es h.2 s hs) fun s1 h1 => exitMappedR_self S (t := .func f sh es) h h1
  | .types t e, h, s, hs => by
    simp only [walkR]
    refine yields_ok ⟨hs.1, fun t' h' => ?_⟩
    cases h'
    exact h
  | .to_ f lo hi, h, s, hs => by
    simp only [walkR]; exact exitMappedR_self S (t := .to_ f lo hi) h hs
  | .in_ f ng sh es, h, s, hs => by
    simp only [walkR]
    exact yields_bind (walkAllR_self S es h.2 s hs) fun s1 h1 => exitMappedR_self S (t := .in_ f ng sh es) h h1
  | .array f op sh es, h, s, hs => by
    simp only [walkR]
    exact yields_bind (walkAllR_self S es h.2 s hs) fun s1 h1 => exitArrayR_self S h.2 (h.1.1.field h.1.2) h1
  | .bad, _, s, hs => by simp only [walkR]; exact yields_ok hs
theorem walkAllR_self (S : Selfish V df) : (ts : List RTree) → SelfTrees V ts → ∀ s, StateSelf V s →
    Yields (StateSelf V) (walkAllR df ts s)
  | [], _, s, hs => by simp only [walkAllR]; exact yields_ok hs
  | t :: ts, h, s, hs => by
    simp only [walkAllR]
    exact yields_bind (walkR_self S t h.1 s hs) fun s1 h1 => walkAllR_self S ts h.2 s1 h1
end

theorem listenR_self (S : Selfish V df) {t : RTree} (h : SelfTree V t) :
    Yields (fun n => TopRel V n n) (listenR df t) := by
  unfold listenR
  refine yields_bind (walkR_self S t h LState.init ⟨by (intro n h; cases h), by (intro t h; cases h)⟩) fun s hs => ?_
  unfold exitParse
  split
  · rename_i n st e
    have hs' : StackSelf V (n :: st) := by rw [← e]; exact hs.1
    exact yields_ok (.inl (stackSelf_top hs'))
  · split
    · rename_i t e
      refine yields_ite ?_ (yields_err _)
      split
      · rename_i hk; exact yields_ok (.inl (.field ((hs.2 t e).field hk)))
      · exact yields_bind (yields_of (hs.2 t e).lone) fun v hv => yields_ok (.inr ⟨v, v, rfl, rfl, hv⟩)
    · exact yields_err _

/-- The node of any text relates to itself, if the tokens of the text do. -/
theorem parseAny_self {s : JStr} (S : Selfish V df) (he : TokSelf V eofTok) (hs : ∀ t ∈ lex s, TokSelf V t) {n : Node}
    (h : parseAny s df = .ok n) : TopRel V n n := by
  unfold parseAny at h
  cases hp : rParse (lex s) with
  | none => rw [hp] at h; cases h
  | some x =>
    obtain ⟨t, y⟩ := x
    rw [hp] at h
    refine listenR_self S ?_ n h
    unfold rParse at hp
    cases hx : rExpr (parseFuel (lex s)) 0 [.eof] (.init (lex s)) with
    | none => rw [hx] at hp; cases hp
    | some z =>
      rw [hx] at hp
      have h1 := ((recovery_from he _).1 _ _ _ _ hx hs).1
      simp only at hp
      split at hp <;> cases hp <;> exact h1

end BoolParser
