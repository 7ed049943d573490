import Verif.Lemmas.RecoveryListen
import Verif.Lemmas.ParseFail
/-!
# How parsing any text can fail
-/

namespace BoolParser
open Spec

section
variable (P : Token → Prop) (Q : Token → JStr → Prop)

mutual
/-- `P` of every operand, `Q` of every upper bound of a range. -/
def RTree.Holds : RTree → Prop
  | .paren t => t.Holds
  | .not_ t => t.Holds
  | .neg t => t.Holds
  | .cmp _ l r => l.Holds ∧ r.Holds
  | .arith _ l r => l.Holds ∧ r.Holds
  | .bin _ l r => l.Holds ∧ r.Holds
  | .func _ _ es => holdsAll es
  | .types t _ => P t
  | .to_ _ lo hi => P lo ∧ ∀ u x, hi = some (u, x) → Q u x
  | .in_ _ _ _ es => holdsAll es
  | .array _ _ _ es => holdsAll es
  | .bad => True
def holdsAll : List RTree → Prop
  | [] => True
  | t :: ts => t.Holds ∧ holdsAll ts
end

end

mutual
theorem holds_mono {P P' : Token → Prop} {Q : Token → JStr → Prop} (hP : ∀ t, P t → P' t) : (t : RTree) →
    t.Holds P Q → t.Holds P' Q
  | .paren t, h => holds_mono hP t h
  | .not_ t, h => holds_mono hP t h
  | .neg t, h => holds_mono hP t h
  | .cmp _ l r, h => ⟨holds_mono hP l h.1, holds_mono hP r h.2⟩
  | .arith _ l r, h => ⟨holds_mono hP l h.1, holds_mono hP r h.2⟩
  | .bin _ l r, h => ⟨holds_mono hP l h.1, holds_mono hP r h.2⟩
  | .func _ _ es, h => holdsAll_mono hP es h
  | .types t _, h => hP t h
  | .to_ _ lo _, h => ⟨hP lo h.1, h.2⟩
  | .in_ _ _ _ es, h => holdsAll_mono hP es h
  | .array _ _ _ es, h => holdsAll_mono hP es h
  | .bad, _ => trivial
theorem holdsAll_mono {P P' : Token → Prop} {Q : Token → JStr → Prop} (hP : ∀ t, P t → P' t) : (ts : List RTree) →
    holdsAll P Q ts → holdsAll P' Q ts
  | [], _ => trivial
  | t :: ts, h => ⟨holds_mono hP t h.1, holdsAll_mono hP ts h.2⟩
end

/-- Every token left satisfies `P`. -/
def RState.All (P : Token → Prop) (s : RState) : Prop := ∀ t ∈ s.toks, P t

variable {P : Token → Prop} {Q : Token → JStr → Prop}

theorem all_head {s : RState} (h : s.All P) (he : P eofTok) : P s.head := by
  unfold RState.head
  cases e : s.toks with
  | nil => exact he
  | cons t ts => exact h t (by rw [e]; simp)

theorem all_consume {s : RState} (h : s.All P) : s.consume.All P := fun t ht => h t (List.mem_of_mem_tail ht)

theorem all_take {s : RState} (h : s.All P) : s.take.All P := fun t ht => h t (List.mem_of_mem_tail ht)

theorem all_report {s : RState} (h : s.All P) : s.report.All P := by
  unfold RState.report; split
  · exact h
  · exact h

theorem skip_mem {stop : TK → Bool} {ts : List Token} :
    (∀ t ∈ (skipUntil stop ts).1, t ∈ ts) ∧ (∀ t ∈ (skipUntil stop ts).2, t ∈ ts) := by
  induction ts with
  | nil => exact ⟨nofun, nofun⟩
  | cons u us ih =>
    unfold skipUntil
    split
    · exact ⟨nofun, fun t ht => ht⟩
    · refine ⟨fun t ht => ?_, fun t ht => List.mem_cons_of_mem _ (ih.2 t ht)⟩
      rcases List.mem_cons.1 ht with rfl | ht
      · simp
      · exact List.mem_cons_of_mem _ (ih.1 t ht)

theorem recover_all {ctx : List Frame} {st : Nat} {s : RState} (h : s.All P) (he : P eofTok) :
    (∀ t ∈ (recover ctx st s).1, P t) ∧ (recover ctx st s).2.All P := by
  unfold recover
  simp only
  constructor
  · intro t ht
    rcases List.mem_append.1 ht with ht | ht
    · split at ht
      · rw [List.mem_singleton] at ht; rw [ht]; exact all_head h he
      · cases ht
    · have := skip_mem.1 t ht
      split at this
      · exact all_consume h t this
      · exact h t this
  · intro t ht
    have := skip_mem.2 t ht
    split at this
    · exact all_consume h t this
    · exact h t this

theorem fail_all {ctx : List Frame} {st : Nat} {s : RState} (h : s.All P) (he : P eofTok) :
    (∀ t ∈ (failAt ctx st s).1, P t) ∧ (failAt ctx st s).2.All P := recover_all (all_report h) he

theorem match_all {want after : TK → Bool} {s : RState} {x : List Token × RState} (h : s.All P) (he : P eofTok)
    (hm : matchTok want after s = some x) : (∀ t ∈ x.1, P t) ∧ x.2.All P := by
  unfold matchTok at hm
  split at hm
  · cases hm
    exact ⟨fun t ht => by rw [List.mem_singleton.1 ht]; exact all_head h he, all_take h⟩
  · split at hm
    · cases hm
      exact ⟨fun t ht => h t (List.mem_of_mem_take ht), all_take (all_consume (all_report h))⟩
    · split at hm
      · cases hm
        exact ⟨nofun, all_report h⟩
      · cases hm

theorem sync_all {want : TK → Bool} {s s' : RState} (h : s.All P) (hs : syncTok want s = some s') : s'.All P := by
  unfold syncTok at hs
  split at hs
  · cases hs; exact h
  · split at hs
    · cases hs; exact h
    · split at hs
      · cases hs; exact all_consume (all_report h)
      · cases hs

theorem holds_mkR (b : BinTok) {l r : RTree} (hl : l.Holds P Q) (hr : r.Holds P Q) : (b.mkR l r).Holds P Q := by
  cases b <;> exact ⟨hl, hr⟩

theorem upper_all {ctx : List Frame} {s : RState} (h : s.All P) (he : P eofTok) : (rUpper ctx s).2.All P := by
  unfold rUpper
  cases hm : matchTok isNumKind (lookAfter (.ops :: ctx)) s with
  | none => exact (fail_all h he).2
  | some x => exact (match_all h he hm).2

theorem range_holds {ctx : List Frame} {t : Token} {s : RState} (h : s.All P) (he : P eofTok)
    (hU : ∀ ctx s, s.All P → Q (rUpper ctx s).1.1 (rUpper ctx s).1.2) :
    (rRange ctx t s).1.Holds P Q ∧ (rRange ctx t s).2.2.All P := by
  unfold rRange
  cases hm : matchTok (· == .kTo) isNumKind s.take with
  | none => exact ⟨⟨all_head h he, fun u x h => by cases h⟩, (fail_all (all_take h) he).2⟩
  | some x =>
    have h1 := (match_all (all_take h) he hm).2
    refine ⟨⟨all_head h he, fun u y h => ?_⟩, upper_all h1 he⟩
    have := hU ctx x.2 h1
    rw [Option.some.inj h] at this
    exact this

theorem recovery_holds (he : P eofTok) (hU : ∀ ctx s, s.All P → Q (rUpper ctx s).1.1 (rUpper ctx s).1.2) (f : Nat) :
    (∀ p ctx s x, rExpr f p ctx s = some x → s.All P → x.1.Holds P Q ∧ x.2.All P) ∧
    (∀ ctx s x, rPrimary f ctx s = some x → s.All P → x.1.Holds P Q ∧ x.2.2.All P) ∧
    (∀ ctx t s x, rField f ctx t s = some x → P t → s.All P → x.1.Holds P Q ∧ x.2.2.All P) ∧
    (∀ p ctx l s x, rLoop f p ctx l s = some x → l.Holds P Q → s.All P → x.1.Holds P Q ∧ x.2.All P) ∧
    (∀ ctx s x, rWordlist f ctx s = some x → s.All P → holdsAll P Q x.2.1 ∧ x.2.2.All P) ∧
    (∀ ctx s x, rMore f ctx s = some x → s.All P → holdsAll P Q x.2.1 ∧ x.2.2.All P) := by
  induction f with
  | zero => refine ⟨?_, ?_, ?_, ?_, ?_, ?_⟩ <;> intros <;> simp_all [rExpr, rPrimary, rField, rLoop, rWordlist, rMore]
  | succ f ih =>
    obtain ⟨hE, hP, hF, hL, hW, hM⟩ := ih
    refine ⟨?_, ?_, ?_, ?_, ?_, ?_⟩
    · intro p ctx s x h ha
      rw [rExpr_succ] at h
      cases e : rPrimary f ctx s with
      | none => rw [e] at h; cases h
      | some y =>
        obtain ⟨t, b, s'⟩ := y
        have h1 := hP _ _ _ e ha
        rw [e] at h
        cases b with
        | true => exact hL _ _ _ _ _ h h1.1 h1.2
        | false => cases h; exact h1
    · intro ctx s x h ha
      rw [rPrimary_succ] at h
      have ht := all_take ha
      have hh := all_head ha he
      cases hk : s.la with
      | lparen =>
        rw [hk] at h
        simp only at h
        cases e : rExpr f 0 (.rparen :: ctx) s.take with
        | none => rw [e] at h; cases h
        | some y =>
          have h1 := hE _ _ _ _ e ht
          rw [e] at h
          simp only at h
          cases hm : matchTok (· == .rparen) (lookAfter (.ops :: ctx)) y.2 with
          | none => rw [hm] at h; cases h; exact ⟨h1.1, (fail_all h1.2 he).2⟩
          | some z => rw [hm] at h; cases h; exact ⟨h1.1, (match_all h1.2 he hm).2⟩
      | kNot =>
        rw [hk] at h
        simp only at h
        cases e : rExpr f 15 (.ops :: ctx) s.take with
        | none => rw [e] at h; cases h
        | some y => rw [e] at h; cases h; exact hE _ _ _ y e ht
      | arith op =>
        rw [hk] at h
        cases op with
        | sub =>
          simp only at h
          split at h
          · cases e : rExpr f 13 (.ops :: ctx) s.take with
            | none => rw [e] at h; cases h
            | some y => rw [e] at h; cases h; exact hE _ _ _ y e ht
          · cases h; exact ⟨trivial, (fail_all ha he).2⟩
        | _ => cases h; exact ⟨hh, ha⟩
      | fn g =>
        rw [hk] at h
        simp only at h
        cases e : rWordlist f (.ops :: ctx) s.take with
        | none => rw [e] at h; cases h
        | some y => rw [e] at h; cases h; exact hW _ _ y e ht
      | field =>
        rw [hk] at h
        simp only at h
        split at h
        · cases h; exact range_holds ht he hU
        · exact hF _ _ _ _ h hh ht
      | _ => rw [hk] at h; cases h; first | exact ⟨hh, ht⟩ | exact ⟨hh, ha⟩
    · intro ctx t s x h hpt ha
      have ht := all_take ha
      rw [rField_succ] at h
      cases hk : s.la with
      | kNot =>
        rw [hk] at h
        simp only at h
        cases hm : matchTok (· == .kIn) (· == .lparen) s.take with
        | none => rw [hm] at h; cases h; exact ⟨trivial, (fail_all ht he).2⟩
        | some y =>
          rw [hm] at h
          simp only at h
          cases e : rWordlist f (.ops :: ctx) y.2 with
          | none => rw [e] at h; cases h
          | some z => rw [e] at h; cases h; exact hW _ _ z e (match_all ht he hm).2
      | kIn =>
        rw [hk] at h
        simp only at h
        cases e : rWordlist f (.ops :: ctx) s.take with
        | none => rw [e] at h; cases h
        | some y => rw [e] at h; cases h; exact hW _ _ y e ht
      | cAll =>
        rw [hk] at h
        simp only at h
        cases e : rWordlist f (.ops :: ctx) s.take with
        | none => rw [e] at h; cases h
        | some y => rw [e] at h; cases h; exact hW _ _ y e ht
      | cAny =>
        rw [hk] at h
        simp only at h
        cases e : rWordlist f (.ops :: ctx) s.take with
        | none => rw [e] at h; cases h
        | some y => rw [e] at h; cases h; exact hW _ _ y e ht
      | _ => rw [hk] at h; cases h; exact ⟨hpt, ha⟩
    · intro p ctx l s x h hl ha
      rw [rLoop_succ] at h
      cases hb : binTok s.la with
      | none => rw [hb] at h; cases h; exact ⟨hl, ha⟩
      | some b =>
        rw [hb] at h
        simp only at h
        split at h
        · cases e : rExpr f (b.prec + 1) (.ops :: ctx) s.take with
          | none => rw [e] at h; cases h
          | some y =>
            rw [e] at h
            have h1 := hE _ _ _ _ e (all_take ha)
            exact hL _ _ _ _ _ h (holds_mkR b hl h1.1) h1.2
        · cases h; exact ⟨hl, ha⟩
    · intro ctx s x h ha
      rw [rWordlist_succ] at h
      cases hm : matchTok (· == .lparen) inListKind s with
      | none => rw [hm] at h; cases h; exact ⟨trivial, (fail_all ha he).2⟩
      | some y =>
        have h0 := (match_all ha he hm).2
        rw [hm] at h
        simp only at h
        cases hs : syncTok inListKind y.2 with
        | none => rw [hs] at h; cases h; exact ⟨trivial, (fail_all h0 he).2⟩
        | some s2 =>
          rw [hs] at h
          simp only at h
          cases e : rExpr f 0 (.items :: ctx) s2 with
          | none => rw [e] at h; cases h
          | some z =>
            have h3 := hE _ _ _ _ e (sync_all h0 hs)
            rw [e] at h
            simp only at h
            cases hs2 : syncTok (Frame.has .items) z.2 with
            | none => rw [hs2] at h; cases h; exact ⟨⟨h3.1, trivial⟩, (fail_all h3.2 he).2⟩
            | some s4 =>
              rw [hs2] at h
              simp only at h
              cases e5 : rMore f ctx s4 with
              | none => rw [e5] at h; cases h
              | some w =>
                rw [e5] at h; cases h
                have h4 := hM _ _ w e5 (sync_all h3.2 hs2)
                exact ⟨⟨h3.1, h4.1⟩, h4.2⟩
    · intro ctx s x h ha
      rw [rMore_succ] at h
      have h0 := all_take ha
      split at h
      · cases hs : syncTok inListKind s.take with
        | none => rw [hs] at h; cases h; exact ⟨trivial, (fail_all h0 he).2⟩
        | some s2 =>
          rw [hs] at h
          simp only at h
          cases e : rExpr f 0 (.items :: ctx) s2 with
          | none => rw [e] at h; cases h
          | some z =>
            have h3 := hE _ _ _ _ e (sync_all h0 hs)
            rw [e] at h
            simp only at h
            cases hs2 : syncTok (Frame.has .items) z.2 with
            | none => rw [hs2] at h; cases h; exact ⟨⟨h3.1, trivial⟩, (fail_all h3.2 he).2⟩
            | some s4 =>
              rw [hs2] at h
              simp only at h
              cases e5 : rMore f ctx s4 with
              | none => rw [e5] at h; cases h
              | some w =>
                rw [e5] at h; cases h
                have h4 := hM _ _ w e5 (sync_all h3.2 hs2)
                exact ⟨⟨h3.1, h4.1⟩, h4.2⟩
      · cases hm : matchTok (· == .rparen) (lookAfter ctx) s with
        | none => rw [hm] at h; cases h; exact ⟨trivial, (fail_all ha he).2⟩
        | some y => rw [hm] at h; cases h; exact ⟨trivial, (match_all ha he hm).2⟩

/-! ## The listener -/

variable {E : Exn → Prop}

/-- The failures of the listener on repaired trees. -/
structure OwnR (E : Exn → Prop) : Prop extends Own E where
  null : E .nullPointer

abbrev RFine (E : Exn → Prop) (t : RTree) : Prop :=
  t.Holds (Converts E) (fun u x => Within E (convertValue x (tokType u)))

abbrev RFines (E : Exn → Prop) (ts : List RTree) : Prop :=
  holdsAll (Converts E) (fun u x => Within E (convertValue x (tokType u))) ts

theorem children_within (o : OwnR E) (sh : ListShape) : Within E sh.children := by
  cases sh <;> first | exact within_err o.null | exact within_ok _

theorem noException_within (o : OwnR E) (sh : ListShape) : Within E sh.noException := by
  cases sh <;> first | exact within_err o.null | exact within_err o.expr | exact within_ok _

mutual
theorem mapNodeR_within (o : OwnR E) (df : Option JStr) : (t : RTree) → RFine E t → ∀ st, Within E (mapNodeR df t st)
  | .types t e, h, st => by
    simp only [mapNodeR]; exact within_bind (mapTypes_within df h e) fun _ => within_ok _
  | .func f sh items, h, st => by
    simp only [mapNodeR]
    exact within_bind (noException_within o sh) fun _ => within_bind (mapNodesR_within o df items h st) fun _ => within_ok _
  | .in_ f ng sh items, h, st => by
    simp only [mapNodeR]
    exact within_bind (children_within o sh) fun _ => within_bind (mapNodesR_within o df items h st) fun _ => within_ok _
  | .to_ f lo hi, h, st => by
    simp only [mapNodeR]
    refine within_bind h.1.1 fun _ => ?_
    split
    · exact within_err o.null
    · exact within_bind (h.2 _ _ rfl) fun _ => within_ok _
  | .cmp op l r, h, st => by
    simp only [mapNodeR]
    refine within_ite ?_ (within_ite ?_ ?_)
    · exact within_bind (mapNodeR_within o df l h.1 st) fun _ => within_bind (popN_within o.toOwn _) fun _ => within_ok _
    · exact within_bind (mapNodeR_within o df r h.2 st) fun _ => within_bind (popN_within o.toOwn _) fun _ => within_ok _
    · exact within_bind (mapNodeR_within o df r h.2 st) fun _ =>
        within_bind (mapNodeR_within o df l h.1 _) fun _ => within_ok _
  | .arith op l r, h, st => by
    simp only [mapNodeR]
    refine within_ite ?_ (within_ite ?_ (within_ite ?_ ?_))
    · exact within_bind (mapNodeR_within o df l h.1 st) fun _ =>
        within_bind (mapNodeR_within o df r h.2 _) fun _ => within_ok _
    · exact within_bind (mapNodeR_within o df l h.1 st) fun _ => within_bind (popN_within o.toOwn _) fun _ => within_ok _
    · exact within_bind (mapNodeR_within o df r h.2 st) fun _ => within_bind (popN_within o.toOwn _) fun _ => within_ok _
    · match st with
      | b :: a :: st => exact within_ok _
      | [_] => exact within_err o.expr
      | [] => exact within_err o.expr
  | .paren _, _, _ => by simp only [mapNodeR]; exact within_err o.expr
  | .not_ _, _, _ => by simp only [mapNodeR]; exact within_err o.expr
  | .neg _, _, _ => by simp only [mapNodeR]; exact within_err o.expr
  | .bin _ _ _, _, _ => by simp only [mapNodeR]; exact within_err o.expr
  | .array _ _ _ _, _, _ => by simp only [mapNodeR]; exact within_err o.expr
  | .bad, _, _ => by simp only [mapNodeR]; exact within_err o.expr
theorem mapNodesR_within (o : OwnR E) (df : Option JStr) : (ts : List RTree) → RFines E ts → ∀ st,
    Within E (mapNodesR df ts st)
  | [], _, st => by simp only [mapNodesR]; exact within_ok _
  | t :: ts, h, st => by
    simp only [mapNodesR]
    exact within_bind (mapNodeR_within o df t h.1 st) fun _ =>
      within_bind (mapNodesR_within o df ts h.2 _) fun _ => within_ok _
end

theorem exitMappedR_steps (o : OwnR E) (df : Option JStr) {t : RTree} (h : RFine E t) {s : LState} (hs : LastFine E s) :
    Steps E (exitMappedR df t s) := by
  refine steps_of (s := s) (within_bind (mapNodeR_within o df t h _) fun _ => within_ok _) ?_ hs
  intro s' h'
  obtain ⟨p, _, h'⟩ := bind_ok_inv h'
  cases h'; rfl

theorem exitNegR_steps (o : OwnR E) (df : Option JStr) {t : RTree} (h : RFine E t) {s : LState} (hs : LastFine E s) :
    Steps E (exitNegR df t s) := by
  have leaf : Steps E (match (generalizing := false) t with
    | .types t em => do
      let n ← mapTypes df t em
      pure { s with stack := .neg n :: s.stack }
    | _ => .error .classCast : Result LState) := by
    cases t with
    | types u em =>
      refine steps_of (s := s) (within_bind (mapTypes_within df h _) fun _ => within_ok _) ?_ hs
      intro s' h'
      obtain ⟨p, _, h'⟩ := bind_ok_inv h'
      cases h'; rfl
    | _ => exact ⟨within_err o.cast, fun s' h' => by cases h'⟩
  unfold exitNegR
  simp only
  split
  · split
    · exact steps_of (s := s) (within_ok _) (fun s' h' => by cases h'; rfl) hs
    · exact leaf
  · exact leaf

mutual
theorem walkR_within (o : OwnR E) (df : Option JStr) : (t : RTree) → RFine E t → ∀ s, LastFine E s →
    Steps E (walkR df t s)
  | .paren t, h, s, hs => by simp only [walkR]; exact walkR_within o df t h s hs
  | .not_ t, h, s, hs => by
    simp only [walkR]
    exact steps_bind (walkR_within o df t h s hs) fun s1 h1 =>
      steps_of (exitNot_within o.toOwn h1) (fun _ => exitNot_last) h1
  | .neg t, h, s, hs => by
    simp only [walkR]
    exact steps_bind (walkR_within o df t h s hs) fun s1 h1 => exitNegR_steps o df (t := t) h h1
  | .cmp op l r, h, s, hs => by
    simp only [walkR]
    exact steps_bind (walkR_within o df l h.1 s hs) fun s1 h1 => steps_bind (walkR_within o df r h.2 s1 h1) fun s2 h2 =>
      exitMappedR_steps o df (t := .cmp op l r) h h2
  | .arith op l r, h, s, hs => by
    simp only [walkR]
    exact steps_bind (walkR_within o df l h.1 s hs) fun s1 h1 => steps_bind (walkR_within o df r h.2 s1 h1) fun s2 h2 =>
      exitMappedR_steps o df (t := .arith op l r) h h2
  | .bin c l r, h, s, hs => by
    simp only [walkR]
    exact steps_bind (walkR_within o df l h.1 s hs) fun s1 h1 => steps_bind (walkR_within o df r h.2 s1 h1) fun s2 h2 =>
      steps_of (exitBin_within o.toOwn _ _) (fun _ => exitBin_last) h2
  | .func f sh es, h, s, hs => by
    simp only [walkR]
    exact steps_bind (walkAllR_within o df es h s hs) fun s1 h1 => exitMappedR_steps o df (t := .func f sh es) h h1
  | .types t e, h, s, _ => by
    simp only [walkR]
    refine ⟨within_ok _, fun s' hs' u hu => ?_⟩
    cases hs'
    cases hu
    exact h
  | .to_ f lo hi, h, s, hs => by
    simp only [walkR]; exact exitMappedR_steps o df (t := .to_ f lo hi) h hs
  | .in_ f ng sh es, h, s, hs => by
    simp only [walkR]
    exact steps_bind (walkAllR_within o df es h s hs) fun s1 h1 => exitMappedR_steps o df (t := .in_ f ng sh es) h h1
  | .array f op sh es, h, s, hs => by
    simp only [walkR]
    refine steps_bind (walkAllR_within o df es h s hs) fun s1 h1 => ?_
    refine steps_of (s := s1) (within_bind (children_within o sh) fun _ =>
      within_bind (mapNodesR_within o df es h _) fun _ => within_ok _) ?_ h1
    intro s' h'
    obtain ⟨_, _, h'⟩ := bind_ok_inv h'
    obtain ⟨p, _, h'⟩ := bind_ok_inv h'
    cases h'; rfl
  | .bad, _, s, hs => by simp only [walkR]; exact ⟨within_ok _, fun s' h' => by cases h'; exact hs⟩
theorem walkAllR_within (o : OwnR E) (df : Option JStr) : (ts : List RTree) → RFines E ts → ∀ s, LastFine E s →
    Steps E (walkAllR df ts s)
  | [], _, s, hs => by simp only [walkAllR]; exact ⟨within_ok _, fun s' h' => by cases h'; exact hs⟩
  | t :: ts, h, s, hs => by
    simp only [walkAllR]
    exact steps_bind (walkR_within o df t h.1 s hs) fun s1 h1 => walkAllR_within o df ts h.2 s1 h1
end

theorem listenR_within (o : OwnR E) (df : Option JStr) {t : RTree} (h : RFine E t) : Within E (listenR df t) := by
  have hw := walkR_within o df t h LState.init (by intro t ht; cases ht)
  unfold listenR
  intro e he
  rcases bind_err_inv he with he | ⟨s, hs, he⟩
  · exact hw.1 e he
  · have hl := hw.2 s hs
    suffices h : Within E (exitParse s) from h e he
    unfold exitParse
    split
    · exact within_ok _
    · split
      · rename_i t ht
        exact within_ite (within_ite (within_ok _) (within_bind (hl t ht).2 fun _ => within_ok _)) (within_err o.expr)
      · exact within_err o.expr

/-! ## Tokens -/

/-- A token of a text, or the end. -/
def Real (t : Token) : Prop := Classified t.text t.kind ∨ t = eofTok

theorem real_long {t : Token} (h : Real t) (hq : t.text.head? = some '\'' ∨ t.text.head? = some '"') :
    2 ≤ t.text.length := by
  rcases h with h | rfl
  · exact classified_long h hq
  · exact absurd hq (by decide)

theorem real_ne {t : Token} (h : Real t) : t.text ≠ [] := by
  rcases h with h | rfl
  · exact (classified_valid h).ne
  · decide

theorem flatten_long {ts : List Token} (h : ∀ t ∈ ts, Real t)
    (hq : (ts.map Token.text).flatten.head? = some '\'' ∨ (ts.map Token.text).flatten.head? = some '"') :
    2 ≤ (ts.map Token.text).flatten.length := by
  cases ts with
  | nil => rcases hq with hq | hq <;> cases hq
  | cons t ts =>
    simp only [List.map_cons, List.flatten_cons, List.length_append] at hq ⊢
    have hne := real_ne (h t (by simp))
    have : t.text.head? = some '\'' ∨ t.text.head? = some '"' := by
      cases e : t.text with
      | nil => exact absurd e hne
      | cons c cs => rw [e] at hq; exact hq
    have := real_long (h t (by simp)) this
    omega

theorem tokType_other {t : Token} (h : isNumKind t.kind = false) {x : JStr} (hs : Within E (convertValue x .string)) :
    Within E (convertValue x (tokType t)) := by
  unfold tokType
  cases hk : t.kind <;> first
    | exact hs
    | exact within_ok _
    | (rw [hk] at h; cases h)

/-- The upper bound of a range. -/
theorem upper_within (hE : ∀ t, P t → Converts E t) (hr : ∀ t, P t → Real t) (he : P eofTok) (ctx : List Frame)
    (s : RState) (h : s.All P) :
    Within E (convertValue (rUpper ctx s).1.2 (tokType (rUpper ctx s).1.1)) := by
  unfold rUpper
  by_cases hn : isNumKind s.la = true
  · have : matchTok isNumKind (lookAfter (.ops :: ctx)) s = some ([s.head], s.take) := by
      unfold matchTok; rw [if_pos hn]
    rw [this]
    simp only [List.map_cons, List.map_nil, List.flatten_cons, List.flatten_nil, List.append_nil]
    exact (hE _ (all_head h he)).1
  · have hn' : isNumKind s.head.kind = false := Bool.eq_false_iff.mpr hn
    cases hm : matchTok isNumKind (lookAfter (.ops :: ctx)) s with
    | none =>
      exact tokType_other hn' (convert_string_within (flatten_long fun t ht => hr t ((fail_all h he).1 t ht)))
    | some x =>
      exact tokType_other hn' (convert_string_within (flatten_long fun t ht => hr t ((match_all h he hm).1 t ht)))

/-- How parsing any text can fail. -/
theorem parseAny_within {s : JStr} {df : Option JStr} {e : Exn} (hs : ∀ t ∈ lex s, Classified t.text t.kind)
    (h : parseAny s df = .error e) :
    e = .invalidExpression ∨ e = .emptyStack ∨ e = .classCast ∨ e = .nullPointer ∨
    (e = .numberFormat ∧ ∃ t ∈ lex s, TooLarge t.text) := by
  generalize hF : (fun e => e = Exn.invalidExpression ∨ e = .emptyStack ∨ e = .classCast ∨ e = .nullPointer ∨
    (e = .numberFormat ∧ ∃ t ∈ lex s, TooLarge t.text)) = F
  have goal : F e := by
    obtain ⟨⟨t, n⟩, hr⟩ := rParse_total (lex s)
    rw [parseAny, hr] at h
    have o : OwnR F := by
      subst hF
      exact ⟨⟨.inl rfl, .inr (.inl rfl), .inr (.inr (.inl rfl))⟩, .inr (.inr (.inr (.inl rfl)))⟩
    refine listenR_within o df (t := t) ?_ e h
    -- tokens of this text only
    let R : Token → Prop := fun t => t ∈ lex s ∨ t = eofTok
    have hreal : ∀ t, R t → Real t := fun t ht => ht.imp (hs t) id
    have hconv : ∀ t, R t → Converts F t := by
      intro t ht
      rcases ht with ht | rfl
      · refine convert_valid (hs t ht) fun hl => ?_
        subst hF
        exact .inr (.inr (.inr (.inr ⟨rfl, t, ht, hl⟩)))
      · exact convert_eof
    obtain ⟨y, hy, rfl⟩ : ∃ y, rExpr (parseFuel (lex s)) 0 [.eof] (.init (lex s)) = some y ∧ y.1 = t := by
      unfold rParse at hr
      split at hr
      · cases hr
      · rename_i u v e
        refine ⟨_, e, ?_⟩
        split at hr <;> cases hr <;> rfl
    exact holds_mono hconv _ ((recovery_holds (P := R) (.inr rfl) (upper_within hconv hreal (.inr rfl)) _).1 _ _ _ _ hy
      fun t ht => .inl ht).1
  subst hF
  exact goal

end BoolParser
