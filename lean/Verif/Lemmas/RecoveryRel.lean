import Verif.Lemmas.RecoveryFrom
import Verif.Lemmas.SimEval
/-!
# The parser treats related token sequences alike, also those that are not of the grammar

As `Verif/Lemmas/Sim.lean`, for the parser that repairs (`Verif/Model/Recovery.lean`). The repairs depend on the kinds
of the tokens only; the one place where texts are put together is the upper bound of a range.
-/

namespace BoolParser

/-- The two sequences agree in the next two tokens and up to the next operator. -/
def FrozenToks (ts ts' : List Token) : Prop :=
  ts.take 2 = ts'.take 2 ∧ ts.takeWhile (fun t => !isBinKind t.kind) = ts'.takeWhile (fun t => !isBinKind t.kind)

/-- A number comes next. -/
def NumberNext (ts : List Token) : Prop := ∃ u r, ts = u :: r ∧ isNumKind u.kind = true

/-- After every TO, a number comes next or the two sequences agree up to the next operator. -/
def KeptToks : List Token → List Token → Prop
  | t :: ts, t' :: ts' => (t.kind = .kTo → NumberNext ts ∨ FrozenToks ts ts') ∧ KeptToks ts ts'
  | _, _ => True

theorem kept_tail {ts ts' : List Token} (h : KeptToks ts ts') : KeptToks ts.tail ts'.tail := by
  cases ts with
  | nil => cases ts' <;> trivial
  | cons t ts =>
    cases ts' with
    | nil => cases ts <;> trivial
    | cons t' ts' => exact h.2

/-- An operand, or what follows an omitted operand, does not begin with NOT or a function. -/
def startsTypes : TK → Bool
  | .kNot => false
  | .fn _ => false
  | _ => true

section
variable (R : Token → Token → Prop) (B : Token × JStr → Token × JStr → Prop)

mutual
inductive RTreeRel : RTree → RTree → Prop
  | paren {t t' : RTree} : RTreeRel t t' → RTreeRel (.paren t) (.paren t')
  | not_ {t t' : RTree} : RTreeRel t t' → RTreeRel (.not_ t) (.not_ t')
  | neg {t t' : RTree} : RTreeRel t t' → RTreeRel (.neg t) (.neg t')
  | cmp {op : CmpOp} {l r l' r' : RTree} : RTreeRel l l' → RTreeRel r r' → RTreeRel (.cmp op l r) (.cmp op l' r')
  | arith {u u' : Token} {op : ArithOp} {l r l' r' : RTree} : R u u' → u.kind = .arith op → RTreeRel l l' →
      RTreeRel r r' → RTreeRel (.arith op l r) (.arith op l' r')
  | bin {c : Bool} {l r l' r' : RTree} : RTreeRel l l' → RTreeRel r r' → RTreeRel (.bin c l r) (.bin c l' r')
  | func {u u' : Token} {f : FuncType} (sh : ListShape) {es es' : List RTree} : R u u' → u.kind = .fn f →
      RTreesRel es es' → RTreeRel (.func f sh es) (.func f sh es')
  | types {t t' : Token} (e : Bool) : R t t' → (e = false → t.kind = .field ∨ isLitKind t.kind = true) →
      startsTypes t.kind = true → RTreeRel (.types t e) (.types t' e)
  | to_ {f lo f' lo' : Token} {hi hi' : Option (Token × JStr)} : R f f' → f.kind = .field → R lo lo' →
      isNumKind lo.kind = true → ORel B hi hi' → RTreeRel (.to_ f lo hi) (.to_ f' lo' hi')
  | in_ {f f' : Token} (n : Bool) (sh : ListShape) {es es' : List RTree} : R f f' → f.kind = .field →
      RTreesRel es es' → RTreeRel (.in_ f n sh es) (.in_ f' n sh es')
  | array {f f' : Token} (o : ArrOp) (sh : ListShape) {es es' : List RTree} : R f f' → f.kind = .field →
      RTreesRel es es' → RTreeRel (.array f o sh es) (.array f' o sh es')
  | bad : RTreeRel .bad .bad
inductive RTreesRel : List RTree → List RTree → Prop
  | nil : RTreesRel [] []
  | cons {t t' : RTree} {ts ts' : List RTree} : RTreeRel t t' → RTreesRel ts ts' → RTreesRel (t :: ts) (t' :: ts')
end

/-- Related parser states. -/
structure StRel (s s' : RState) : Prop where
  toks : List.Forall₂ R s.toks s'.toks
  bounds : (∀ x x', B x x') ∨ KeptToks s.toks s'.toks
  recovering : s.recovering = s'.recovering
  lastIndex : s.lastIndex = s'.lastIndex
  lastStates : s.lastStates = s'.lastStates
  errors : s.errors = s'.errors

/-- What the token relation must satisfy. -/
structure AlikeToks : Prop where
  kind : ∀ {t t'}, R t t' → t.kind = t'.kind
  eof : R eofTok eofTok
  num : ∀ {t t'}, R t t' → isNumKind t.kind = true → B (t, t.text) (t', t'.text)
  same : ∀ t x, B (t, x) (t, x)
end

variable {R : Token → Token → Prop} {B : Token × JStr → Token × JStr → Prop}

section
variable (A : AlikeToks R B) {s s' : RState} (h : StRel R B s s')
include h

theorem st_head (A : AlikeToks R B) : R s.head s'.head := by
  have := h.toks
  unfold RState.head
  revert this
  generalize s.toks = a
  generalize s'.toks = b
  intro this
  cases this with
  | nil => exact A.eof
  | cons h _ => exact h

theorem st_la (A : AlikeToks R B) : s.la = s'.la := A.kind (st_head h A)

theorem st_la2 (A : AlikeToks R B) : s.la2 = s'.la2 := by
  have := h.toks
  unfold RState.la2
  revert this
  generalize s.toks = a
  generalize s'.toks = b
  intro this
  cases this with
  | nil => rfl
  | cons h h2 =>
    cases h2 with
    | nil => rfl
    | cons h2 _ => exact A.kind h2

theorem st_tail : List.Forall₂ R s.toks.tail s'.toks.tail := by
  have := h.toks
  revert this
  generalize s.toks = a
  generalize s'.toks = b
  intro this
  cases this with
  | nil => exact .nil
  | cons _ h => exact h

theorem st_len : s.toks.length = s'.toks.length := forall2_length h.toks

theorem st_bounds : (∀ x x', B x x') ∨ KeptToks s.toks.tail s'.toks.tail := h.bounds.imp id kept_tail

theorem st_consume : StRel R B s.consume s'.consume :=
  ⟨st_tail h, st_bounds h, h.recovering, h.lastIndex, h.lastStates, h.errors⟩

theorem st_reportMatch : StRel R B s.reportMatch s'.reportMatch :=
  ⟨h.toks, h.bounds, rfl, rfl, rfl, h.errors⟩

theorem st_take : StRel R B s.take s'.take :=
  st_consume (st_reportMatch h)

theorem st_report : StRel R B s.report s'.report := by
  unfold RState.report
  rw [← h.recovering]
  split
  · exact h
  · exact ⟨h.toks, h.bounds, rfl, h.lastIndex, h.lastStates, by simp only [h.errors]⟩

end

theorem skip_rel (hk : ∀ {t t'}, R t t' → t.kind = t'.kind) (stop : TK → Bool) {ts ts' : List Token} (h : List.Forall₂ R ts ts') :
    List.Forall₂ R (skipUntil stop ts).1 (skipUntil stop ts').1 ∧ List.Forall₂ R (skipUntil stop ts).2 (skipUntil stop ts').2 ∧
      (KeptToks ts ts' → KeptToks (skipUntil stop ts).2 (skipUntil stop ts').2) := by
  induction h with
  | nil => exact ⟨.nil, .nil, id⟩
  | cons h1 h2 ih =>
    rw [skipUntil, skipUntil, ← hk h1]
    split
    · exact ⟨.nil, .cons h1 h2, id⟩
    · exact ⟨.cons h1 ih.1, ih.2.1, fun h => ih.2.2 (kept_tail h)⟩

theorem st_recover {s s' : RState} (h : StRel R B s s') (A : AlikeToks R B) (ctx : List Frame) (st : Nat) :
    List.Forall₂ R (recover ctx st s).1 (recover ctx st s').1 ∧ StRel R B (recover ctx st s).2 (recover ctx st s').2 := by
  unfold recover
  simp only [← h.lastIndex, ← h.lastStates, ← st_len h]
  by_cases c : s.lastIndex = some s.toks.length ∧ st ∈ s.lastStates
  · simp only [if_pos c]
    have hc := st_consume h
    have := skip_rel A.kind (recoverySet ctx) hc.toks
    refine ⟨.cons (st_head h A) this.1, ⟨this.2.1, hc.bounds.imp id this.2.2, hc.recovering, ?_, ?_, hc.errors⟩⟩
    · simp only [st_len hc]
    · simp only [hc.lastStates]
  · simp only [if_neg c]
    have := skip_rel A.kind (recoverySet ctx) h.toks
    refine ⟨this.1, ⟨this.2.1, h.bounds.imp id this.2.2, h.recovering, ?_, ?_, h.errors⟩⟩
    · simp only [st_len h]
    · simp only [h.lastStates]

theorem st_fail {s s' : RState} (h : StRel R B s s') (A : AlikeToks R B) (ctx : List Frame) (st : Nat) :
    List.Forall₂ R (failAt ctx st s).1 (failAt ctx st s').1 ∧ StRel R B (failAt ctx st s).2 (failAt ctx st s').2 :=
  st_recover (st_report h) A ctx st

theorem forall2_take {α β : Type} {Q : α → β → Prop} {xs : List α} {ys : List β} (h : List.Forall₂ Q xs ys) :
    (n : Nat) → List.Forall₂ Q (xs.take n) (ys.take n)
  | 0 => by simp
  | n + 1 => by
    cases h with
    | nil => exact .nil
    | cons h1 h2 => exact .cons h1 (forall2_take h2 n)

/-- Related consumed tokens, related states. -/
def MRel (R : Token → Token → Prop) (B : Token × JStr → Token × JStr → Prop) (x x' : List Token × RState) : Prop :=
  List.Forall₂ R x.1 x'.1 ∧ StRel R B x.2 x'.2

theorem st_match {s s' : RState} (h : StRel R B s s') (A : AlikeToks R B) (want after : TK → Bool) :
    ORel (MRel R B) (matchTok want after s) (matchTok want after s') := by
  unfold matchTok
  rw [← st_la h A, ← st_la2 h A]
  split
  · exact .some ⟨.cons (st_head h A) .nil, st_take h⟩
  split
  · exact .some ⟨forall2_take h.toks 2, st_take (st_consume (st_report h))⟩
  split
  · exact .some ⟨.nil, st_report h⟩
  · exact .none

theorem st_sync {s s' : RState} (h : StRel R B s s') (A : AlikeToks R B) (want : TK → Bool) :
    ORel (StRel R B) (syncTok want s) (syncTok want s') := by
  unfold syncTok
  rw [← st_la h A, ← st_la2 h A, ← h.recovering]
  split
  · exact .some h
  split
  · exact .some h
  split
  · exact .some (st_reportMatch (st_consume (st_report h)))
  · exact .none

theorem ahead_rel (hk : ∀ {t t'}, R t t' → t.kind = t'.kind) (ctx : List Frame) {ts ts' : List Token} (h : List.Forall₂ R ts ts') :
    ∀ a o, minusAhead ctx a o ts = minusAhead ctx a o ts' := by
  induction h with
  | nil => intro a o; rfl
  | cons h1 _ ih =>
    intro a o
    rw [minusAhead, minusAhead, ← hk h1]
    cases aheadStep ctx a o _ with
    | agree => rfl
    | stuck => rfl
    | more a' o' => exact ih a' o'

theorem skip_frozen (stop : TK → Bool) (hs : ∀ k, isBinKind k = true → stop k = true) : {ts ts' : List Token} →
    ts.takeWhile (fun t => !isBinKind t.kind) = ts'.takeWhile (fun t => !isBinKind t.kind) →
    List.Forall₂ (fun t t' : Token => t.kind = t'.kind) ts ts' → (skipUntil stop ts).1 = (skipUntil stop ts').1
  | _, _, _, .nil => rfl
  | t :: ts, t' :: ts', h, .cons h1 h2 => by
    rw [skipUntil, skipUntil, ← h1]
    split
    · rfl
    · rename_i hn
      have hb : isBinKind t.kind = false := by
        cases e : isBinKind t.kind with
        | false => rfl
        | true => exact absurd (hs _ e) hn
      rw [List.takeWhile_cons_of_pos (by simp [hb]), List.takeWhile_cons_of_pos (by simp [← h1, hb])] at h
      injection h with h3 h4
      rw [h3, skip_frozen stop hs h4 h2]

/-- The upper bound of a range. -/
theorem upper_rel {s s' : RState} (h : StRel R B s s') (A : AlikeToks R B) (ctx : List Frame)
    (hu : (∀ x x', B x x') ∨ isNumKind s.la = true ∨ (FrozenToks s.toks s'.toks ∧ s.lastIndex = none)) :
    B (rUpper ctx s).1 (rUpper ctx s').1 ∧ StRel R B (rUpper ctx s).2 (rUpper ctx s').2 := by
  have hm := st_match h A isNumKind (lookAfter (.ops :: ctx))
  have hf := st_fail h A (.ops :: ctx) 129
  have hst : StRel R B (rUpper ctx s).2 (rUpper ctx s').2 := by
    unfold rUpper
    revert hm
    generalize matchTok isNumKind (lookAfter (.ops :: ctx)) s = x
    generalize matchTok isNumKind (lookAfter (.ops :: ctx)) s' = x'
    intro hm
    cases hm with
    | none => exact hf.2
    | some hm => exact hm.2
  refine ⟨?_, hst⟩
  rcases hu with hu | hu | ⟨hu, hi⟩
  · exact hu _ _
  · have h1 : matchTok isNumKind (lookAfter (.ops :: ctx)) s = some ([s.head], s.take) := by
      unfold matchTok; rw [if_pos hu]
    have h2 : matchTok isNumKind (lookAfter (.ops :: ctx)) s' = some ([s'.head], s'.take) := by
      unfold matchTok; rw [if_pos (st_la h A ▸ hu)]
    unfold rUpper
    rw [h1, h2]
    have := A.num (st_head h A) hu
    simpa using this
  · have hh : s.head = s'.head := by
      have := hu.1
      unfold RState.head
      cases e : s.toks with
      | nil =>
        cases e' : s'.toks with
        | nil => rfl
        | cons t ts => rw [e, e'] at this; simp at this
      | cons t ts =>
        cases e' : s'.toks with
        | nil => rw [e, e'] at this; simp at this
        | cons t' ts' => rw [e, e'] at this; simp at this; exact this.1
    have hs : (failAt (.ops :: ctx) 129 s).1 = (failAt (.ops :: ctx) 129 s').1 := by
      have hr : s.report.lastIndex = none := by unfold RState.report; split <;> exact hi
      have hr' : s'.report.lastIndex = none := by
        have := (st_report h).lastIndex; rw [hr] at this; exact this.symm
      unfold failAt recover
      simp only [hr, hr', reduceCtorEq, false_and, if_false, List.nil_append, report_toks]
      exact skip_frozen _ (fun k hk => by simp [recoverySet, Frame.has, hk]) hu.2 (h.toks.imp fun _ _ h => A.kind h)
    have : (rUpper ctx s).1 = (rUpper ctx s').1 := by
      unfold rUpper
      unfold matchTok
      rw [← st_la h A, ← st_la2 h A, ← hh, ← hu.1]
      by_cases c1 : isNumKind s.la = true
      · rw [if_pos c1, if_pos c1]
      rw [if_neg c1, if_neg c1]
      by_cases c2 : isNumKind s.la2 = true
      · rw [if_pos c2, if_pos c2]
      rw [if_neg c2, if_neg c2]
      by_cases c3 : lookAfter (.ops :: ctx) s.la = true
      · rw [if_pos c3, if_pos c3]
      rw [if_neg c3, if_neg c3]
      simp only [hs]
    rw [this]
    exact A.same _ _

/-- Related tree, the same flag, related state. -/
def QRel (R : Token → Token → Prop) (B : Token × JStr → Token × JStr → Prop) (x x' : RTree × Bool × RState) : Prop :=
  RTreeRel R B x.1 x'.1 ∧ x.2.1 = x'.2.1 ∧ StRel R B x.2.2 x'.2.2

/-- Related tree, related state. -/
def ERel (R : Token → Token → Prop) (B : Token × JStr → Token × JStr → Prop) (x x' : RTree × RState) : Prop :=
  RTreeRel R B x.1 x'.1 ∧ StRel R B x.2 x'.2

/-- The same shape, related items, related state. -/
def WRel (R : Token → Token → Prop) (B : Token × JStr → Token × JStr → Prop) (x x' : ListShape × List RTree × RState) :
    Prop := x.1 = x'.1 ∧ RTreesRel R B x.2.1 x'.2.1 ∧ StRel R B x.2.2 x'.2.2

theorem range_rel {t t' : Token} {s s' : RState} (h : StRel R B s s') (A : AlikeToks R B) (ctx : List Frame) (ht : R t t')
    (hf : t.kind = .field) (hn : isNumKind s.la = true) : QRel R B (rRange ctx t s) (rRange ctx t' s') := by
  have h1 := st_take h
  have hm := st_match h1 A (· == .kTo) isNumKind
  unfold rRange
  cases e : matchTok (· == .kTo) isNumKind s.take with
  | none =>
    rw [e] at hm
    cases e' : matchTok (· == .kTo) isNumKind s'.take with
    | some _ => rw [e'] at hm; cases hm
    | none => exact ⟨.to_ ht hf (st_head h A) hn .none, rfl, (st_fail h1 A ctx 40).2⟩
  | some x =>
    rw [e] at hm
    cases e' : matchTok (· == .kTo) isNumKind s'.take with
    | none => rw [e'] at hm; cases hm
    | some x' =>
      rw [e'] at hm
      cases hm with
      | some hm =>
        have hu : (∀ x x', B x x') ∨ isNumKind x.2.la = true ∨ (FrozenToks x.2.toks x'.2.toks ∧ x.2.lastIndex = none) := by
          rcases h1.bounds with hb | hb
          · exact .inl hb
          · refine .inr ?_
            have next : ∀ {y : RState} {r : List Token}, y.toks = r → NumberNext r → isNumKind y.la = true := by
              intro y r hy ⟨u, q, hr, hu⟩
              unfold RState.la RState.head
              rw [hy, hr]; exact hu
            have hla := st_la h1 A
            have hla2 := st_la2 h1 A
            unfold matchTok at e e'
            rw [← hla, ← hla2] at e'
            split at e
            · rename_i hk
              rw [if_pos hk] at e'
              cases e; cases e'
              have hk : s.take.la = .kTo := by simpa using hk
              obtain ⟨r, hr, hk1⟩ := head_kind hk (by decide)
              obtain ⟨r', hr', -⟩ := head_kind (hla ▸ hk : s'.take.la = _) (by decide)
              have ht : s.take.take.toks = r := by show s.take.toks.tail = r; rw [hr]; rfl
              have ht' : s'.take.take.toks = r' := by show s'.take.toks.tail = r'; rw [hr']; rfl
              rw [hr, hr'] at hb
              rcases hb.1 hk1 with hn | hz
              · exact .inl (next ht hn)
              · exact .inr ⟨by simp only [ht, ht']; exact hz, rfl⟩
            · rename_i hk0
              rw [if_neg hk0] at e'
              split at e
              · rename_i hk
                rw [if_pos hk] at e'
                cases e; cases e'
                have hk : s.take.la2 = .kTo := by simpa using hk
                obtain ⟨a, b, r, hr, hk1⟩ := second_kind hk (by decide)
                obtain ⟨a', b', r', hr', -⟩ := second_kind (hla2 ▸ hk : s'.take.la2 = _) (by decide)
                have ht : s.take.report.consume.take.toks = r := by
                  show s.take.report.toks.tail.tail = r
                  rw [report_toks, hr]; rfl
                have ht' : s'.take.report.consume.take.toks = r' := by
                  show s'.take.report.toks.tail.tail = r'
                  rw [report_toks, hr']; rfl
                rw [hr, hr'] at hb
                rcases hb.2.1 hk1 with hn | hz
                · exact .inl (next ht hn)
                · exact .inr ⟨by simp only [ht, ht']; exact hz, rfl⟩
              · split at e
                · rename_i hk
                  cases e
                  left
                  unfold RState.la RState.head at hk ⊢
                  rw [report_toks]
                  exact hk
                · cases e
        have := upper_rel hm.2 A ctx hu
        exact ⟨.to_ ht hf (st_head h A) hn (.some this.1), rfl, this.2⟩
where
  head_kind {s : RState} {k : TK} (h : s.la = k) (hk : k ≠ .eof) : ∃ r, s.toks = s.head :: r ∧ s.head.kind = k := by
    unfold RState.la RState.head at h
    unfold RState.head
    cases e : s.toks with
    | nil => rw [e] at h; exact absurd h.symm hk
    | cons t ts => rw [e] at h; exact ⟨ts, rfl, h⟩
  second_kind {s : RState} {k : TK} (h : s.la2 = k) (hk : k ≠ .eof) :
      ∃ t u r, s.toks = t :: u :: r ∧ u.kind = k := by
    unfold RState.la2 at h
    cases e : s.toks with
    | nil => rw [e] at h; exact absurd h.symm hk
    | cons t ts =>
      cases ts with
      | nil => rw [e] at h; exact absurd h.symm hk
      | cons u r => rw [e] at h; exact ⟨t, u, r, rfl, h⟩

theorem mkR_rel {u u' : Token} {b : BinTok} (hu : R u u') (hb : binTok u.kind = some b) {l l' r r' : RTree}
    (hl : RTreeRel R B l l') (hr : RTreeRel R B r r') : RTreeRel R B (b.mkR l r) (b.mkR l' r') := by
  cases b with
  | cmp op => exact .cmp hl hr
  | conn c => exact .bin hl hr
  | arith op =>
    refine .arith hu ?_ hl hr
    cases hk : u.kind <;> rw [hk] at hb <;> cases hb
    rfl

theorem recovery_rel (A : AlikeToks R B) (f : Nat) :
    (∀ p ctx s s', StRel R B s s' → ORel (ERel R B) (rExpr f p ctx s) (rExpr f p ctx s')) ∧
    (∀ ctx s s', StRel R B s s' → ORel (QRel R B) (rPrimary f ctx s) (rPrimary f ctx s')) ∧
    (∀ ctx t t' s s', R t t' → t.kind = .field → StRel R B s s' →
      ORel (QRel R B) (rField f ctx t s) (rField f ctx t' s')) ∧
    (∀ p ctx l l' s s', RTreeRel R B l l' → StRel R B s s' → ORel (ERel R B) (rLoop f p ctx l s) (rLoop f p ctx l' s')) ∧
    (∀ ctx s s', StRel R B s s' → ORel (WRel R B) (rWordlist f ctx s) (rWordlist f ctx s')) ∧
    (∀ ctx s s', StRel R B s s' → ORel (WRel R B) (rMore f ctx s) (rMore f ctx s')) := by
  induction f with
  | zero => refine ⟨?_, ?_, ?_, ?_, ?_, ?_⟩ <;> intros <;> exact .none
  | succ f ih =>
    obtain ⟨hE, hP, hF, hL, hW, hM⟩ := ih
    have one : ∀ {p : Nat} {ctx : List Frame} {s s' : RState} {mk : RTree → RTree}, StRel R B s s' →
        (∀ e e', RTreeRel R B e e' → RTreeRel R B (mk e) (mk e')) →
        ORel (QRel R B) (match rExpr f p ctx s with | some (e, r) => some (mk e, true, r) | none => none)
          (match rExpr f p ctx s' with | some (e, r) => some (mk e, true, r) | none => none) := by
      intro p ctx s s' mk h hm
      have := hE p ctx _ _ h
      revert this
      generalize rExpr f p ctx s = x
      generalize rExpr f p ctx s' = x'
      intro this
      cases this with
      | none => exact .none
      | some hq => exact .some ⟨hm _ _ hq.1, rfl, hq.2⟩
    have list : ∀ {ctx : List Frame} {s s' : RState} {mk mk' : ListShape → List RTree → RTree}, StRel R B s s' →
        (∀ sh e e', RTreesRel R B e e' → RTreeRel R B (mk sh e) (mk' sh e')) →
        ORel (QRel R B) (match rWordlist f ctx s with | some (sh, e, r) => some (mk sh e, true, r) | none => none)
          (match rWordlist f ctx s' with | some (sh, e, r) => some (mk' sh e, true, r) | none => none) := by
      intro ctx s s' mk mk' h hm
      have := hW ctx _ _ h
      revert this
      generalize rWordlist f ctx s = x
      generalize rWordlist f ctx s' = x'
      intro this
      cases this with
      | none => exact .none
      | @some a b hq =>
        obtain ⟨a1, a2, a3⟩ := a
        obtain ⟨b1, b2, b3⟩ := b
        obtain ⟨q1, q2, q3⟩ := hq
        simp only at q1 q2 q3
        subst q1
        exact .some ⟨hm _ _ _ q2, rfl, q3⟩
    have items : ∀ {ctx : List Frame} {st : Nat} {s s' : RState}, StRel R B s s' → ORel (WRel R B)
        (match rExpr f 0 (.items :: ctx) s with
          | none => none
          | some (e, s3) =>
            match syncTok (Frame.has .items) s3 with
            | none => some (.failed, [e], (failAt ctx st s3).2)
            | some s4 =>
              match rMore f ctx s4 with
              | none => none
              | some (sh, es, s5) => some (sh, e :: es, s5))
        (match rExpr f 0 (.items :: ctx) s' with
          | none => none
          | some (e, s3) =>
            match syncTok (Frame.has .items) s3 with
            | none => some (.failed, [e], (failAt ctx st s3).2)
            | some s4 =>
              match rMore f ctx s4 with
              | none => none
              | some (sh, es, s5) => some (sh, e :: es, s5)) := by
      intro ctx st s s' h
      have := hE 0 (.items :: ctx) _ _ h
      revert this
      generalize rExpr f 0 (.items :: ctx) s = x
      generalize rExpr f 0 (.items :: ctx) s' = x'
      intro this
      cases this with
      | none => exact .none
      | @some a b hq =>
        obtain ⟨a1, a2⟩ := a
        obtain ⟨b1, b2⟩ := b
        obtain ⟨q1, q2⟩ := hq
        simp only at q1 q2 ⊢
        have := st_sync q2 A (Frame.has .items)
        revert this
        generalize syncTok (Frame.has .items) a2 = y
        generalize syncTok (Frame.has .items) b2 = y'
        intro this
        cases this with
        | none => exact .some ⟨rfl, .cons q1 .nil, (st_fail q2 A ctx st).2⟩
        | @some u u' q =>
          simp only
          have := hM ctx _ _ q
          revert this
          generalize rMore f ctx u = z
          generalize rMore f ctx u' = z'
          intro this
          cases this with
          | none => exact .none
          | some q' => exact .some ⟨q'.1, .cons q1 q'.2.1, q'.2.2⟩
    refine ⟨?_, ?_, ?_, ?_, ?_, ?_⟩
    · intro p ctx s s' h
      rw [rExpr_succ, rExpr_succ]
      have := hP ctx _ _ h
      revert this
      generalize rPrimary f ctx s = x
      generalize rPrimary f ctx s' = x'
      intro this
      cases this with
      | none => exact .none
      | @some a b hq =>
        obtain ⟨a1, a2, a3⟩ := a
        obtain ⟨b1, b2, b3⟩ := b
        obtain ⟨q1, q2, q3⟩ := hq
        simp only at q1 q2 q3
        subst q2
        cases a2 with
        | true => exact hL _ _ _ _ _ _ q1 q3
        | false => exact .some ⟨q1, q3⟩
    · intro ctx s s' h
      have hh := st_head h A
      have ht := st_take h
      rw [rPrimary_succ, rPrimary_succ, ← st_la h A]
      cases hk : s.la with
      | lparen =>
        simp only
        have := hE 0 (.rparen :: ctx) _ _ ht
        revert this
        generalize rExpr f 0 (.rparen :: ctx) s.take = x
        generalize rExpr f 0 (.rparen :: ctx) s'.take = x'
        intro this
        cases this with
        | none => exact .none
        | @some a b hq =>
          obtain ⟨a1, a2⟩ := a
          obtain ⟨b1, b2⟩ := b
          obtain ⟨q1, q2⟩ := hq
          simp only at q1 q2 ⊢
          have := st_match q2 A (· == .rparen) (lookAfter (.ops :: ctx))
          revert this
          generalize matchTok (· == .rparen) (lookAfter (.ops :: ctx)) a2 = y
          generalize matchTok (· == .rparen) (lookAfter (.ops :: ctx)) b2 = y'
          intro this
          cases this with
          | none => exact .some ⟨.paren q1, rfl, (st_fail q2 A ctx 28).2⟩
          | some q => exact .some ⟨.paren q1, rfl, q.2⟩
      | kNot => exact one ht (fun _ _ h => .not_ h)
      | arith op =>
        cases op with
        | sub =>
          simp only
          rw [← ahead_rel A.kind ctx (st_tail h)]
          split
          · exact one ht (fun _ _ h => .neg h)
          · exact .some ⟨.bad, rfl, (st_fail h A ctx 53).2⟩
        | _ => exact .some ⟨.types _ hh (fun h => nomatch h) (by show startsTypes s.la = true; rw [hk]; rfl), rfl, h⟩
      | fn g => exact list (mk := .func g) (mk' := .func g) ht (fun sh _ _ h => .func sh hh hk h)
      | field =>
        simp only
        rw [← st_la ht A]
        split
        · rename_i hn; exact .some (range_rel ht A ctx hh hk hn)
        · exact hF _ _ _ _ _ hh hk ht
      | _ =>
        first
        | exact .some ⟨.types _ hh (fun _ => .inr (by show isLitKind s.la = true; rw [hk]; rfl))
            (by show startsTypes s.la = true; rw [hk]; rfl), rfl, ht⟩
        | exact .some ⟨.types _ hh (fun h => nomatch h) (by show startsTypes s.la = true; rw [hk]; rfl), rfl, h⟩
    · intro ctx t t' s s' hr hf h
      have ht := st_take h
      rw [rField_succ, rField_succ, ← st_la h A]
      cases hk : s.la with
      | kIn => exact list (mk := .in_ t false) (mk' := .in_ t' false) ht (fun sh _ _ h => .in_ _ sh hr hf h)
      | cAll => exact list (mk := .array t _) (mk' := .array t' _) ht (fun sh _ _ h => .array _ sh hr hf h)
      | cAny => exact list (mk := .array t _) (mk' := .array t' _) ht (fun sh _ _ h => .array _ sh hr hf h)
      | kNot =>
        simp only
        have := st_match ht A (· == .kIn) (· == .lparen)
        revert this
        generalize matchTok (· == .kIn) (· == .lparen) s.take = y
        generalize matchTok (· == .kIn) (· == .lparen) s'.take = y'
        intro this
        cases this with
        | none => exact .some ⟨.in_ _ _ hr hf .nil, rfl, (st_fail ht A ctx 47).2⟩
        | some q => exact list (mk := .in_ t true) (mk' := .in_ t' true) q.2 (fun sh _ _ h => .in_ _ sh hr hf h)
      | _ => exact .some ⟨.types _ hr (fun _ => .inl hf) (by rw [hf]; rfl), rfl, h⟩
    · intro p ctx l l' s s' hl h
      rw [rLoop_succ, rLoop_succ, ← st_la h A]
      cases hb : binTok s.la with
      | none => exact .some ⟨hl, h⟩
      | some b =>
        simp only
        split
        · have := hE (b.prec + 1) (.ops :: ctx) _ _ (st_take h)
          revert this
          generalize rExpr f (b.prec + 1) (.ops :: ctx) s.take = x
          generalize rExpr f (b.prec + 1) (.ops :: ctx) s'.take = x'
          intro this
          cases this with
          | none => exact .none
          | some q => exact hL _ _ _ _ _ _ (mkR_rel (st_head h A) hb hl q.1) q.2
        · exact .some ⟨hl, h⟩
    · intro ctx s s' h
      rw [rWordlist_succ, rWordlist_succ]
      have := st_match h A (· == .lparen) inListKind
      revert this
      generalize matchTok (· == .lparen) inListKind s = y
      generalize matchTok (· == .lparen) inListKind s' = y'
      intro this
      cases this with
      | none =>
        have := st_fail h A ctx 92
        refine .some ⟨?_, .nil, this.2⟩
        have := this.1
        revert this
        generalize (failAt ctx 92 s).1 = a
        generalize (failAt ctx 92 s').1 = b
        intro this
        cases this <;> rfl
      | @some a b q =>
        obtain ⟨a1, a2⟩ := a
        obtain ⟨b1, b2⟩ := b
        have q := q.2
        simp only at q ⊢
        have := st_sync q A inListKind
        revert this
        generalize syncTok inListKind a2 = z
        generalize syncTok inListKind b2 = z'
        intro this
        cases this with
        | none => exact .some ⟨rfl, .nil, (st_fail q A ctx 96).2⟩
        | some q => exact items q
    · intro ctx s s' h
      rw [rMore_succ, rMore_succ, ← st_la h A]
      have ht := st_take h
      split
      · have := st_sync ht A inListKind
        revert this
        generalize syncTok inListKind s.take = z
        generalize syncTok inListKind s'.take = z'
        intro this
        cases this with
        | none => exact .some ⟨rfl, .nil, (st_fail ht A ctx 110).2⟩
        | some q => exact items q
      · have := st_match h A (· == .rparen) (lookAfter ctx)
        revert this
        generalize matchTok (· == .rparen) (lookAfter ctx) s = y
        generalize matchTok (· == .rparen) (lookAfter ctx) s' = y'
        intro this
        cases this with
        | none => exact .some ⟨rfl, .nil, (st_fail h A ctx 125).2⟩
        | some q => exact .some ⟨rfl, .nil, q.2⟩

/-- Related token sequences are parsed to related trees with the same number of reported errors. -/
theorem rParse_rel (A : AlikeToks R B) {ts ts' : List Token} (h : List.Forall₂ R ts ts')
    (hb : (∀ x x', B x x') ∨ KeptToks ts ts') :
    ORel (fun x x' => RTreeRel R B x.1 x'.1 ∧ x.2 = x'.2) (rParse ts) (rParse ts') := by
  unfold rParse
  have hl : parseFuel ts = parseFuel ts' := by unfold parseFuel; rw [forall2_length h]
  rw [← hl]
  have := (recovery_rel A (parseFuel ts)).1 0 [.eof] (.init ts) (.init ts') ⟨h, hb, rfl, rfl, rfl, rfl⟩
  revert this
  generalize rExpr (parseFuel ts) 0 [.eof] (.init ts) = x
  generalize rExpr (parseFuel ts) 0 [.eof] (.init ts') = x'
  intro this
  cases this with
  | none => exact .none
  | @some a b q =>
    obtain ⟨a1, a2⟩ := a
    obtain ⟨b1, b2⟩ := b
    obtain ⟨q1, q2⟩ := q
    simp only at q1 q2 ⊢
    have := st_match q2 A (· == .eof) (fun _ => false)
    revert this
    generalize matchTok (· == .eof) (fun _ => false) a2 = y
    generalize matchTok (· == .eof) (fun _ => false) b2 = y'
    intro this
    cases this with
    | none => exact .some ⟨q1, (st_fail q2 A [] 23).2.errors⟩
    | some q => exact .some ⟨q1, q.2.errors⟩

end BoolParser
