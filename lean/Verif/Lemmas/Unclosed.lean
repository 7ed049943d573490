import Verif.Lemmas.RecoveryListen
/-!
# Parsing a text whose closing parentheses are missing at the end
-/

namespace BoolParser

/-! ## Parentheses -/

/-- No prefix closes more parentheses than it opens. -/
def Shut (ks : List TK) : Prop := ∀ q q', ks = q ++ q' → q.count .rparen ≤ q.count .lparen

theorem shut_nil : Shut [] := by
  intro q q' h
  obtain ⟨rfl, -⟩ := List.append_eq_nil_iff.1 h.symm
  exact Nat.le_refl _

theorem shut_append {c a : List TK} (h1 : Shut c) (h2 : c.count .rparen ≤ c.count .lparen) (h3 : Shut a) : Shut (c ++ a) := by
  intro q q' h
  rcases List.append_eq_append_iff.1 h with ⟨m, rfl, h'⟩ | ⟨m, h', rfl⟩
  · have := h3 m q' h'
    simp only [List.count_append]; omega
  · exact h1 q m h'

theorem shut_cons {k : TK} {ks : List TK} (hk : k ≠ .rparen) (h : Shut ks) : Shut (k :: ks) := by
  intro q q' e
  cases q with
  | nil => exact Nat.le_refl _
  | cons x q =>
    simp only [List.cons_append, List.cons.injEq] at e
    obtain ⟨rfl, e⟩ := e
    have := h q q' e
    rw [List.count_cons_of_ne hk]
    exact Nat.le_trans this (List.count_le_count_cons ..)

theorem count_cons_other {k x : TK} (h : k ≠ x) (ks : List TK) : (k :: ks).count x = ks.count x :=
  List.count_cons_of_ne h

/-- Closes what it opens, in order. -/
def Paired (ks : List TK) : Prop := Shut ks ∧ ks.count .rparen = ks.count .lparen

theorem Paired.append {a b : List TK} (h : Paired a) (h' : Paired b) : Paired (a ++ b) :=
  ⟨shut_append h.1 (Nat.le_of_eq h.2) h'.1, by simp [List.count_append, h.2, h'.2]⟩

theorem Paired.cons {k : TK} {a : List TK} (h1 : k ≠ .rparen) (h2 : k ≠ .lparen) (h : Paired a) : Paired (k :: a) :=
  ⟨shut_cons h1 h.1, by rw [count_cons_other h1, count_cons_other h2, h.2]⟩

theorem paired_nil : Paired [] := ⟨shut_nil, rfl⟩

theorem Paired.paren {a : List TK} (h : Paired a) : Paired (.lparen :: (a ++ [.rparen])) := by
  refine ⟨?_, by simp [List.count_append, h.2]⟩
  intro q q' e
  cases q with
  | nil => exact Nat.le_refl _
  | cons x q =>
    simp only [List.cons_append, List.cons.injEq] at e
    obtain ⟨rfl, e⟩ := e
    have hc : List.count TK.rparen q ≤ List.count TK.lparen q + 1 := by
      rcases List.append_eq_append_iff.1 e with ⟨m, rfl, h'⟩ | ⟨m, h', rfl⟩
      · have h2 := h.2
        have hm : m.count .rparen ≤ 1 := by
          have := congrArg (List.count TK.rparen) h'
          simp only [List.count_append] at this
          have h3 : List.count TK.rparen [TK.rparen] = 1 := rfl
          omega
        simp only [List.count_append]; omega
      · exact Nat.le_succ_of_le (h.1 q m h')
    simpa [List.count_cons] using hc

theorem Paired.items {e : List TK} {es : List (List TK)} (h : Paired e) (hs : ∀ x ∈ es, Paired x) :
    Paired (e ++ es.flatMap (fun x => TK.comma :: x)) := by
  refine h.append ?_
  clear h
  induction es with
  | nil => exact paired_nil
  | cons x es ih =>
    rw [List.flatMap_cons]
    exact ((hs x (by simp)).cons (by decide) (by decide)).append (ih fun y hy => hs y (by simp [hy]))

theorem Paired.wordlist {e : List TK} {es : List (List TK)} (h : Paired e) (hs : ∀ x ∈ es, Paired x) :
    Paired (wordlist e es) := by
  have := (h.items hs).paren
  rwa [List.append_assoc] at this

theorem Expression.paired {ks : List TK} (h : Expression ks) : Paired ks := by
  induction h with
  | paren _ ih => exact ih.paren
  | not_ _ ih => exact ih.cons (by decide) (by decide)
  | minus _ ih => exact ih.cons (by decide) (by decide)
  | between ho _ _ ihl ihr =>
    refine ihl.append (ihr.cons ?_ ?_) <;>
    · simp only [betweenKinds, List.mem_cons, List.not_mem_nil, or_false] at ho
      rcases ho with rfl | rfl | rfl | rfl | rfl | rfl | rfl | rfl | rfl | rfl | rfl | rfl | rfl | rfl <;> decide
  | func _ _ ih ihs => exact (ih.wordlist ihs).cons (by simp) (by simp)
  | types hk =>
    refine paired_nil.cons ?_ ?_ <;>
    · simp only [typesKinds, List.mem_cons, List.not_mem_nil, or_false] at hk
      rcases hk with rfl | rfl | rfl | rfl | rfl | rfl | rfl | rfl | rfl <;> decide
  | omitted => exact paired_nil
  | to_ h1 h2 =>
    simp only [numericKinds, List.mem_cons, List.not_mem_nil, or_false] at h1 h2
    rcases h1 with rfl | rfl <;> rcases h2 with rfl | rfl <;>
      exact (((paired_nil.cons (by decide) (by decide)).cons (by decide) (by decide)).cons (by decide) (by decide)).cons
        (by decide) (by decide)
  | in_ _ _ ih ihs => exact ((ih.wordlist ihs).cons (by decide) (by decide)).cons (by decide) (by decide)
  | notIn _ _ ih ihs =>
    exact (((ih.wordlist ihs).cons (by decide) (by decide)).cons (by decide) (by decide)).cons (by decide) (by decide)
  | array ho _ _ ih ihs =>
    simp only [arrayKinds, List.mem_cons, List.not_mem_nil, or_false] at ho
    rcases ho with rfl | rfl <;>
      exact ((ih.wordlist ihs).cons (by decide) (by decide)).cons (by decide) (by decide)

/-- Nothing closes a parenthesis opened before these tokens. -/
def NoClose (a : List Token) : Prop := Shut (a.map Token.kind)

theorem noClose_cons {t : Token} {a : List Token} (h : t.kind ≠ .rparen) (ha : NoClose a) : NoClose (t :: a) :=
  shut_cons h ha

theorem noClose_takes {a r : List Token} (h : Takes Expression a r) (hr : NoClose r) : NoClose a := by
  obtain ⟨c, rfl, hc⟩ := h
  have := hc.paired
  unfold NoClose
  rw [List.map_append]
  exact shut_append this.1 (Nat.le_of_eq this.2) hr

/-- A function is called and its parenthesis not closed. -/
def FnOpen (a : List Token) : Prop :=
  ∃ pre g u rest f, a = pre ++ g :: u :: rest ∧ g.kind = .fn f ∧ u.kind = .lparen ∧ NoClose rest

theorem FnOpen.cons {a : List Token} (t : Token) (h : FnOpen a) : FnOpen (t :: a) := by
  obtain ⟨pre, g, u, rest, f, rfl, h⟩ := h
  exact ⟨t :: pre, g, u, rest, f, rfl, h⟩

theorem FnOpen.takes {P : List TK → Prop} {a r : List Token} (h : Takes P a r) (hr : FnOpen r) : FnOpen a := by
  obtain ⟨c, rfl, -⟩ := h
  obtain ⟨pre, g, u, rest, f, rfl, hr⟩ := hr
  exact ⟨c ++ pre, g, u, rest, f, by simp, hr⟩

/-! ## Operands at the end, signs -/

/-- The kinds of token that end an operand. -/
def operandEnd (k : TK) : Bool := isLitKind k || k == .field || k == .rparen

/-- The last token, if any, ends an operand. -/
def solid (a : List Token) : Bool := match a.getLast? with | some u => operandEnd u.kind | none => true

theorem solid_append {c r : List Token} (h : solid (c ++ r) = true) : solid r = true := by
  cases r with
  | nil => rfl
  | cons u r =>
    have : (c ++ u :: r).getLast? = (u :: r).getLast? := by
      rw [List.getLast?_append, List.getLast?_cons]; rfl
    simpa only [solid, this] using h

theorem solid_tail {t : Token} {r : List Token} (h : solid (t :: r) = true) : solid r = true :=
  solid_append (c := [t]) h

theorem solid_ne {t : Token} {r : List Token} (h : solid (t :: r) = true) (hk : operandEnd t.kind = false) : r ≠ [] := by
  rintro rfl
  simp [solid, hk] at h

/-- The next token is a literal. -/
def startsLit (ts : List Token) : Bool := match ts with | t :: _ => isLitKind t.kind | [] => false

/-- Every minus sign where an operand is expected is followed by a literal. `o`: an operand is expected first. -/
def signs : Bool → List Token → Bool
  | _, [] => true
  | o, t :: ts => (!(o && t.kind == .arith .sub) || startsLit ts) && signs (!operandEnd t.kind) ts

theorem signs_weak {o : Bool} {ts : List Token} (h : signs o ts = true) : signs false ts = true := by
  cases ts with
  | nil => rfl
  | cons t ts =>
    simp only [signs, Bool.and_eq_true, Bool.false_and, Bool.not_false, Bool.true_or, true_and] at h ⊢
    exact h.2

theorem signs_cons {o : Bool} {t : Token} {ts : List Token} (h : signs o (t :: ts) = true)
    (hk : operandEnd t.kind = false) : signs true ts = true := by
  simp only [signs, Bool.and_eq_true, hk] at h
  exact h.2

theorem signs_tail {o : Bool} {t : Token} {ts : List Token} (h : signs o (t :: ts) = true) : signs false ts = true := by
  simp only [signs, Bool.and_eq_true] at h
  exact signs_weak h.2

theorem bin_operandEnd {k : TK} {b : BinTok} (h : binTok k = some b) : operandEnd k = false := by
  cases k <;> first | rfl | cases h

theorem lit_bare {f p : Nat} {ts : List Token} {x : Tree × List Token} (h : pExpr f p ts = some x)
    (hl : startsLit ts = true) : x.1.bare = false := by
  cases ts with
  | nil => cases hl
  | cons t ts =>
    match f, h with
    | 1, h => rw [pExpr] at h; cases h
    | f + 2, h =>
      rw [pExpr, pPrimary_cons] at h
      have hl' : isLitKind t.kind = true := hl
      have hb : (Tree.types t false).bare = false := by
        cases hk : t.kind <;> simp [hk, isLitKind] at hl' <;> simp [Tree.bare, hk]
      have : pLoop (f + 1) p (.types t false) ts = some x := by
        cases hk : t.kind <;> simp [hk, isLitKind] at hl' <;> simpa [hk, isLitKind] using h
      rcases loop_cases this with rfl | h1
      · exact hb
      · exact h1.1

theorem signs_parse (f : Nat) :
    (∀ p ts x, pExpr f p ts = some x → signs true ts = true → x.1.calm = true ∧ signs false x.2 = true) ∧
    (∀ ts x, pPrimary f ts = some x → signs true ts = true → x.1.calm = true ∧ signs false x.2 = true) ∧
    (∀ t ts x, pAfterField f t ts = some x → signs false ts = true → x.1.calm = true ∧ signs false x.2 = true) ∧
    (∀ p l ts x, pLoop f p l ts = some x → l.calm = true → signs false ts = true →
      x.1.calm = true ∧ signs false x.2 = true) ∧
    (∀ ts x, pWordlist f ts = some x → signs false ts = true → signs false x.2 = true) ∧
    (∀ ts x, pMore f ts = some x → signs false ts = true → signs false x.2 = true) := by
  induction f with
  | zero => refine ⟨?_, ?_, ?_, ?_, ?_, ?_⟩ <;> intros <;> simp_all [pExpr, pPrimary, pAfterField, pLoop, pWordlist, pMore]
  | succ f ih =>
    obtain ⟨hE, hP, hA, hL, hW, hM⟩ := ih
    refine ⟨?_, ?_, ?_, ?_, ?_, ?_⟩
    · intro p ts x h hs
      rw [pExpr] at h
      cases e : pPrimary f ts with
      | none => rw [e] at h; cases h
      | some y =>
        rw [e] at h
        have := hP _ _ e hs
        exact hL _ _ _ _ h this.1 this.2
    · intro ts x h hs
      cases ts with
      | nil => cases h; exact ⟨rfl, rfl⟩
      | cons t ts =>
        have hs' := signs_tail hs
        by_cases hf : t.kind = .field
        · rw [pPrimary_field _ _ _ hf] at h
          match ts, h with
          | [], h => cases h; exact ⟨rfl, rfl⟩
          | [lo], h =>
            simp only [fieldTail] at h
            split at h
            · cases h
            · exact hA t _ _ h hs'
          | [lo, to_], h =>
            simp only [fieldTail] at h
            split at h
            · cases h
            · exact hA t _ _ h hs'
          | lo :: to_ :: hi :: ts', h =>
            simp only [fieldTail] at h
            split at h
            · split at h
              · cases h; exact ⟨rfl, signs_tail (signs_tail (signs_tail hs'))⟩
              · cases h
            · exact hA t _ _ h hs'
        · rw [pPrimary_cons] at h
          cases hk : t.kind with
          | lparen =>
            rw [hk] at h
            simp only at h
            cases e : pExpr f 0 ts with
            | none => rw [e] at h; cases h
            | some y =>
              obtain ⟨t', r⟩ := y
              rw [e] at h
              cases r with
              | nil => cases h
              | cons r ts' =>
                simp only at h
                split at h
                · cases h
                  exact ⟨rfl, signs_tail (hE _ _ _ e (signs_cons hs (by rw [hk]; rfl))).2⟩
                · cases h
          | kNot =>
            rw [hk] at h
            simp only at h
            cases e : pExpr f 15 ts with
            | none => rw [e] at h; cases h
            | some y =>
              rw [e] at h; cases h
              exact hE _ _ y e (signs_cons hs (by rw [hk]; rfl))
          | arith op =>
            rw [hk] at h
            cases op with
            | sub =>
              simp only at h
              cases e : pExpr f 13 ts with
              | none => rw [e] at h; cases h
              | some y =>
                rw [e] at h; cases h
                have h1 := hE _ _ _ e (signs_cons hs (by rw [hk]; rfl))
                have h2 : startsLit ts = true := by
                  simp only [signs, hk, Bool.and_eq_true] at hs
                  simpa using hs.1
                refine ⟨?_, h1.2⟩
                simp [Tree.calm, lit_bare e h2, h1.1]
            | _ => cases h; exact ⟨rfl, signs_weak hs⟩
          | fn g =>
            rw [hk] at h
            simp only at h
            cases e : pWordlist f ts with
            | none => rw [e] at h; cases h
            | some y => rw [e] at h; cases h; exact ⟨rfl, hW _ _ e hs'⟩
          | field => exact absurd hk hf
          | _ => rw [hk] at h; cases h <;> first | exact ⟨rfl, signs_weak hs⟩ | exact ⟨rfl, hs'⟩
    · intro t ts x h hs
      cases ts with
      | nil => cases h; exact ⟨rfl, rfl⟩
      | cons u us =>
        rw [pAfterField_cons] at h
        have hs' := signs_tail hs
        cases hk : u.kind with
        | kIn =>
          rw [hk] at h
          simp only at h
          cases e : pWordlist f us with
          | none => rw [e] at h; cases h
          | some y => rw [e] at h; cases h; exact ⟨rfl, hW _ _ e hs'⟩
        | cAll =>
          rw [hk] at h
          simp only at h
          cases e : pWordlist f us with
          | none => rw [e] at h; cases h
          | some y => rw [e] at h; cases h; exact ⟨rfl, hW _ _ e hs'⟩
        | cAny =>
          rw [hk] at h
          simp only at h
          cases e : pWordlist f us with
          | none => rw [e] at h; cases h
          | some y => rw [e] at h; cases h; exact ⟨rfl, hW _ _ e hs'⟩
        | kNot =>
          rw [hk] at h
          cases us with
          | nil => cases h
          | cons v vs =>
            simp only at h
            split at h
            · cases e : pWordlist f vs with
              | none => rw [e] at h; cases h
              | some y => rw [e] at h; cases h; exact ⟨rfl, hW _ _ e (signs_tail hs')⟩
            · cases h
        | _ => rw [hk] at h; cases h; exact ⟨rfl, hs⟩
    · intro p l ts x h hl hs
      cases ts with
      | nil => rw [pLoop] at h; cases h; exact ⟨hl, rfl⟩
      | cons t ts =>
        rw [pLoop] at h
        cases hb : binTok t.kind with
        | none => rw [hb] at h; cases h; exact ⟨hl, hs⟩
        | some b =>
          rw [hb] at h
          simp only at h
          split at h
          · cases e : pExpr f (b.prec + 1) ts with
            | none => rw [e] at h; cases h
            | some y =>
              rw [e] at h
              have := hE _ _ _ e (signs_cons hs (bin_operandEnd hb))
              exact hL _ _ _ _ h (by rw [calm_mk]; exact this.1) this.2
          · cases h; exact ⟨hl, hs⟩
    · intro ts x h hs
      cases ts with
      | nil => cases h
      | cons t ts =>
        rw [pWordlist] at h
        split at h
        · rename_i hk
          cases e : pExpr f 0 ts with
          | none => rw [e] at h; cases h
          | some y =>
            rw [e] at h
            simp only at h
            cases e2 : pMore f y.2 with
            | none => rw [e2] at h; cases h
            | some z =>
              rw [e2] at h; cases h
              exact hM _ z e2 (hE _ _ _ e (signs_cons hs (by rw [hk]; rfl))).2
        · cases h
    · intro ts x h hs
      cases ts with
      | nil => cases h
      | cons t ts =>
        rw [pMore] at h
        split at h
        · cases h; exact signs_tail hs
        · split at h
          · rename_i hk
            cases e : pExpr f 0 ts with
            | none => rw [e] at h; cases h
            | some y =>
              rw [e] at h
              simp only at h
              cases e2 : pMore f y.2 with
              | none => rw [e2] at h; cases h
              | some z =>
                rw [e2] at h; cases h
                exact hM _ z e2 (hE _ _ _ e (signs_cons hs (by rw [hk]; rfl))).2
          · cases h

/-! ## Trees whose last list was left open -/

/-- A list that was entered. -/
def ListShape.entered (sh : ListShape) : Bool := sh == .failed || sh == .complete

/-- The left tree is the right one, except that lists at its end were left by an exception. The flag: one of them is
the argument list of a function. -/
inductive Mended : Bool → RTree → Tree → Prop
  | same (t : Tree) : Mended false t.up t
  | paren {b t' t} : Mended b t' t → Mended b (.paren t') (.paren t)
  | not_ {b t' t} : Mended b t' t → Mended b (.not_ t') (.not_ t)
  | neg {b t' t} : Mended b t' t → Mended b (.neg t') (.neg t)
  | cmp {b op l t' t} : Mended b t' t → Mended b (.cmp op (Tree.up l) t') (.cmp op l t)
  | arith {b op l t' t} : Mended b t' t → Mended b (.arith op (Tree.up l) t') (.arith op l t)
  | bin {b c l t' t} : Mended b t' t → Mended b (.bin c (Tree.up l) t') (.bin c l t)
  | func {b g sh ts t' t} : sh.entered = true → Mended b t' t →
      Mended true (.func g sh (Tree.upAll ts ++ [t'])) (.func g (ts ++ [t]))
  | in_ {b f ng sh ts t' t} : sh.entered = true → Mended b t' t →
      Mended b (.in_ f ng sh (Tree.upAll ts ++ [t'])) (.in_ f ng (ts ++ [t]))
  | array {b f op sh ts t' t} : sh.entered = true → Mended b t' t →
      Mended b (.array f op sh (Tree.upAll ts ++ [t'])) (.array f op (ts ++ [t]))

theorem Mended.mk {b : Bool} {o : BinTok} {l : Tree} {t' : RTree} {t : Tree} (h : Mended b t' t) :
    Mended b (o.mkR l.up t') (o.mk l t) := by
  cases o
  · exact .cmp h
  · exact .arith h
  · exact .bin h

/-- A function is open if the tree says so. -/
def Torn (a : List Token) (t' : RTree) (t : Tree) : Prop := ∃ b, Mended b t' t ∧ (b = true → FnOpen a)

def TornAll (a : List Token) (ts' : List RTree) (ts : List Tree) : Prop :=
  ∃ is l' l, ts' = Tree.upAll is ++ [l'] ∧ ts = is ++ [l] ∧ Torn a l' l

/-- What is left of `C` when part of it has been read. -/
def Past (C r : List Token) : Prop := ∃ c, c ≠ [] ∧ C = c ++ r

theorem fail_empty (ctx : List Frame) (st : Nat) {s : RState} (h : s.toks = []) : (failAt ctx st s).2.toks = [] := by
  have h1 : s.report.toks = [] := by unfold RState.report; split <;> exact h
  unfold failAt recover
  simp only
  split
  · simp [RState.consume, h1, skipUntil]
  · simp [h1, skipUntil]

theorem rLoop_empty (f p : Nat) (ctx : List Frame) (l : RTree) {s : RState} (h : s.toks = []) :
    rLoop (f + 1) p ctx l s = some (l, s) := by
  rw [rLoop_succ]
  have : s.la = .eof := by unfold RState.la RState.head; rw [h]; rfl
  rw [this]; rfl

theorem rMore_empty (f : Nat) (ctx : List Frame) {s : RState} (h : s.toks = []) :
    ∃ sh s', rMore (f + 1) ctx s = some (sh, [], s') ∧ sh.entered = true ∧ s'.toks = [] := by
  rw [rMore_succ]
  have h1 : s.la = .eof := by unfold RState.la RState.head; rw [h]; rfl
  have h2 : s.la2 = .eof := by unfold RState.la2; rw [h]
  have h3 : s.report.toks = [] := by unfold RState.report; split <;> exact h
  rw [if_neg (by rw [h1]; decide)]
  unfold matchTok
  simp only [h1, h2]
  by_cases hl : lookAfter ctx .eof = true
  · simp only [hl, if_true]
    exact ⟨_, _, rfl, rfl, h3⟩
  · simp only [hl]
    exact ⟨_, _, rfl, rfl, fail_empty _ _ h⟩

/-- After the item with which the input ends. -/
theorem sync_empty {s : RState} (h : s.toks = []) :
    syncTok (Frame.has .items) s = none ∨ syncTok (Frame.has .items) s = some s := by
  have h1 : s.la = .eof := by unfold RState.la RState.head; rw [h]; rfl
  have h2 : s.la2 = .eof := by unfold RState.la2; rw [h]
  unfold syncTok
  rw [h1, h2]
  split
  · exact .inr rfl
  · exact .inl rfl

theorem match_empty (ctx : List Frame) {s : RState} (h : s.toks = []) :
    matchTok (· == .rparen) (lookAfter (.ops :: ctx)) s = none ∨
    ∃ s', matchTok (· == .rparen) (lookAfter (.ops :: ctx)) s = some ([], s') ∧ s'.toks = [] := by
  have h1 : s.la = .eof := by unfold RState.la RState.head; rw [h]; rfl
  have h2 : s.la2 = .eof := by unfold RState.la2; rw [h]
  have h3 : s.report.toks = [] := by unfold RState.report; split <;> exact h
  unfold matchTok
  simp only [h1, h2]
  by_cases hl : lookAfter (.ops :: ctx) .eof = true
  · simp only [hl, if_true]
    exact .inr ⟨_, rfl, h3⟩
  · simp only [hl]
    exact .inl rfl

theorem past_next {C r : List Token} (hC : ∀ u ∈ C, u.kind = .rparen) (h : Past C r) :
    r = [] ∨ ∃ u r', r = u :: r' ∧ u.kind = .rparen ∧ Past C r' := by
  cases r with
  | nil => exact .inl rfl
  | cons u r =>
    obtain ⟨c, hc, rfl⟩ := h
    exact .inr ⟨u, r, rfl, hC u (by simp), c ++ [u], by simp, by simp⟩

theorem all_next {C : List Token} (hC : ∀ u ∈ C, u.kind = .rparen) :
    C = [] ∨ ∃ u r', C = u :: r' ∧ u.kind = .rparen ∧ Past C r' := by
  cases C with
  | nil => exact .inl rfl
  | cons u r => exact .inr ⟨u, r, rfl, hC u (by simp), [u], by simp, rfl⟩

theorem loop_shut {f p : Nat} {l : Tree} {r : List Token} (hr : r = [] ∨ ∃ u r', r = u :: r' ∧ u.kind = .rparen)
    {x : Tree × List Token} (h : pLoop f p l r = some x) : x = (l, r) := by
  cases f with
  | zero => cases h
  | succ f =>
    rcases hr with rfl | ⟨u, r', rfl, hu⟩
    · rw [pLoop] at h; cases h; rfl
    · rw [pLoop, hu] at h; cases h; rfl

theorem Torn.cons {a : List Token} {t' : RTree} {t : Tree} (u : Token) (h : Torn a t' t) : Torn (u :: a) t' t := by
  obtain ⟨b, h1, h2⟩ := h
  exact ⟨b, h1, fun hb => (h2 hb).cons u⟩

theorem Torn.takes {P : List TK → Prop} {a r : List Token} {t' : RTree} {t : Tree} (h : Takes P a r) (ht : Torn r t' t) :
    Torn a t' t := by
  obtain ⟨b, h1, h2⟩ := ht
  exact ⟨b, h1, fun hb => (h2 hb).takes h⟩

theorem Torn.map {a : List Token} {t' : RTree} {t : Tree} {g' : RTree} {g : Tree} (h : Torn a t' t)
    (hm : ∀ b, Mended b t' t → Mended b g' g) : Torn a g' g := by
  obtain ⟨b, h1, h2⟩ := h
  exact ⟨b, hm b h1, h2⟩

theorem torn_same (a : List Token) (t : Tree) : Torn a t.up t := ⟨false, .same t, nofun⟩

theorem upAll_append (xs ys : List Tree) : Tree.upAll (xs ++ ys) = Tree.upAll xs ++ Tree.upAll ys := by
  induction xs with
  | nil => rfl
  | cons x xs ih => simp [Tree.upAll, ih]

theorem next_append {r : List Token} (hr : r ≠ []) (C : List Token) : nextKind (r ++ C) = nextKind r := by
  cases r with
  | nil => exact absurd rfl hr
  | cons u r => rfl

theorem lookAfter_any {ctx : List Frame} {r C : List Token} (hr : r ≠ [])
    (h : lookAfter ctx (nextKind (r ++ C)) = true) : lookAfter ctx (nextKind r) = true := by
  rwa [next_append hr] at h

theorem fieldTail_plain (f : Nat) (t : Token) {lo : Token} (h : isNumKind lo.kind = false) (r : List Token) :
    fieldTail f t (lo :: r) = pAfterField f t (lo :: r) := by
  match r with
  | [] => simp [fieldTail, h]
  | [_] => simp [fieldTail, h]
  | _ :: _ :: _ => simp [fieldTail, h]

theorem fieldTail_num {f : Nat} {t lo : Token} (h : isNumKind lo.kind = true) {r : List Token} {x : Tree × List Token}
    (hx : fieldTail f t (lo :: r) = some x) :
    ∃ to_ hi r', r = to_ :: hi :: r' ∧ to_.kind = .kTo ∧ isNumKind hi.kind = true ∧ x = (.to_ t lo hi, r') := by
  match r, hx with
  | [], hx => simp [fieldTail, h] at hx
  | [_], hx => simp [fieldTail, h] at hx
  | to_ :: hi :: r', hx =>
    simp only [fieldTail, h, if_true] at hx
    split at hx
    · rename_i h2
      cases hx
      exact ⟨to_, hi, r', rfl, h2.1, h2.2, rfl⟩
    · cases hx

theorem afterField_shut {f : Nat} {t : Token} {r : List Token} (hr : r = [] ∨ ∃ u r', r = u :: r' ∧ u.kind = .rparen)
    {x : Tree × List Token} (h : pAfterField f t r = some x) : x = (.types t false, r) ∧ f ≠ 0 := by
  cases f with
  | zero => cases h
  | succ f =>
    rcases hr with rfl | ⟨u, r', rfl, hu⟩
    · cases h; exact ⟨rfl, by simp⟩
    · rw [pAfterField_cons, hu] at h; cases h; exact ⟨rfl, by simp⟩

section
variable (C : List Token)

/-- The text `a` without the parentheses `C` at its end: either they were not touched, or the parser with recovery
comes to the end of `a` with the same tree up to lists left open. -/
def Cases (a : List Token) {α : Type} (p : List Token → Option (α × List Token)) (x : α × List Token)
    (open_ : Prop) : Prop :=
  (∃ r1, x.2 = r1 ++ C ∧ p a = some (x.1, r1)) ∨ (Past C x.2 ∧ NoClose a ∧ open_)

end

theorem unclosed {C : List Token} (hC : ∀ u ∈ C, u.kind = .rparen) (f : Nat) :
    (∀ p a x, pExpr f p (a ++ C) = some x → a ≠ [] → solid a = true → signs true a = true →
      Cases C a (pExpr f p) x (∀ ctx n, ∃ x' s', rExpr (f + 1) p ctx (.at n a) = some (x', s') ∧ s'.toks = [] ∧
        Torn a x' x.1)) ∧
    (∀ a x, pPrimary f (a ++ C) = some x → a ≠ [] → solid a = true → signs true a = true →
      Cases C a (pPrimary f) x (∀ ctx n, ∃ x' b s', rPrimary (f + 1) ctx (.at n a) = some (x', b, s') ∧ s'.toks = [] ∧
        Torn a x' x.1)) ∧
    (∀ t a x, pAfterField f t (a ++ C) = some x → solid a = true → signs false a = true →
      Cases C a (pAfterField f t) x (∀ ctx n, ∃ x' b s', rField (f + 1) ctx t (.at n a) = some (x', b, s') ∧
        s'.toks = [] ∧ Torn a x' x.1)) ∧
    (∀ p l a x, pLoop f p l (a ++ C) = some x → solid a = true → signs false a = true →
      Cases C a (pLoop f p l) x (∀ ctx n, ∃ x' s', rLoop (f + 1) p ctx l.up (.at n a) = some (x', s') ∧ s'.toks = [] ∧
        Torn a x' x.1)) ∧
    (∀ a x, pWordlist f (a ++ C) = some x → a ≠ [] → solid a = true → signs true a = true →
      Cases C a (pWordlist f) x ((∃ u us, a = u :: us ∧ u.kind = .lparen ∧ NoClose us) ∧
        ∀ ctx n, ∃ sh es' s', rWordlist (f + 1) ctx (.at n a) = some (sh, es', s') ∧
        s'.toks = [] ∧ sh.entered = true ∧ TornAll a es' x.1)) ∧
    (∀ a x, pMore f (a ++ C) = some x → a ≠ [] → solid a = true → signs false a = true →
      Cases C a (pMore f) x (∀ ctx n, ∃ sh es' s', rMore (f + 1) ctx (.at n a) = some (sh, es', s') ∧ s'.toks = [] ∧
        sh.entered = true ∧ TornAll a es' x.1)) := by
  induction f with
  | zero => refine ⟨?_, ?_, ?_, ?_, ?_, ?_⟩ <;> intros <;> simp_all [pExpr, pPrimary, pAfterField, pLoop, pWordlist, pMore]
  | succ f ih =>
    obtain ⟨hE, hP, hA, hL, hW, hM⟩ := ih
    have agree := parse_agree f
    have sp := signs_parse f
    have tk := parse_takes f
    -- what follows an item of a list
    have hItems : ∀ a y z, pExpr f 0 (a ++ C) = some y → pMore f y.2 = some z → a ≠ [] → solid a = true →
        signs true a = true →
        (∃ r1 r2, z.2 = r2 ++ C ∧ pExpr f 0 a = some (y.1, r1) ∧ pMore f r1 = some (z.1, r2)) ∨
        (Past C z.2 ∧ NoClose a ∧ ∀ ctx n (fail : RState → RState) (hfail : ∀ s, s.toks = [] → (fail s).toks = []),
          ∃ sh es' s',
          (match rExpr (f + 1) 0 (.items :: ctx) (.at n a) with
            | none => none
            | some (e, s3) =>
              match syncTok (Frame.has .items) s3 with
              | none => some (ListShape.failed, [e], fail s3)
              | some s4 =>
                match rMore (f + 1) ctx s4 with
                | none => none
                | some (sh, es, s5) => some (sh, e :: es, s5)) = some (sh, es', s') ∧
          s'.toks = [] ∧ sh.entered = true ∧ TornAll a es' (y.1 :: z.1)) := by
      intro a y z h1 h2 ha hs hg
      rcases hE _ _ _ h1 ha hs hg with ⟨r1, hr1, h3⟩ | ⟨hp, hn, hx⟩
      · have hsp := sp.1 _ _ _ h3 hg
        have htk := tk.1 _ _ _ h3
        have hsol : solid r1 = true := by
          obtain ⟨c, hc, -⟩ := htk
          rw [hc] at hs
          exact solid_append hs
        cases r1 with
        | nil =>
          right
          -- the list ends with this item, its parenthesis is missing
          simp only [List.nil_append] at hr1
          rw [hr1] at h2
          have hz : Past C z.2 ∧ z.1 = [] := by
            cases f with
            | zero => cases h2
            | succ f =>
              rcases all_next hC with h0 | ⟨u, r', hu, hk, hpast⟩
              · rw [h0] at h2; cases h2
              · rw [hu, pMore, if_pos hk] at h2
                cases h2
                exact ⟨hpast, rfl⟩
          refine ⟨hz.1, noClose_takes htk shut_nil, ?_⟩
          intro ctx n fail hfail
          rw [agree.1 0 (.items :: ctx) n a _ h3 (.inr hsp.1)]
          simp only
          have hsy : syncTok (Frame.has .items) (.at n []) = none := rfl
          rw [hsy]
          refine ⟨_, _, _, rfl, hfail _ rfl, rfl, [], y.1.up, y.1, rfl, by rw [hz.2]; rfl, torn_same _ _⟩
        | cons u r1 =>
          rw [hr1] at h2
          have hends : Frame.has .items (nextKind (u :: r1)) = true := by
            have := ends_items h2
            rwa [next_append (by simp)] at this
          rcases hM _ _ h2 (by simp) hsol hsp.2 with ⟨r2, hr2, h4⟩ | ⟨hp2, hn2, hx2⟩
          · exact .inl ⟨_, r2, hr2, h3, h4⟩
          · right
            refine ⟨hp2, noClose_takes htk hn2, ?_⟩
            intro ctx n fail hfail
            rw [agree.1 0 (.items :: ctx) n a _ h3 (.inr hsp.1)]
            simp only
            rw [sync_at hends]
            simp only
            obtain ⟨sh, es', s', h5, h6, h7, is, l', l, h8, h9, h10⟩ := hx2 ctx n
            rw [h5]
            exact ⟨_, _, _, rfl, h6, h7, y.1 :: is, l', l, by rw [h8]; rfl, by rw [h9]; rfl, h10.takes htk⟩
      · right
        -- the item itself was left open
        have hz : Past C z.2 ∧ z.1 = [] := by
          cases f with
          | zero => cases h2
          | succ f =>
            rcases past_next hC hp with h0 | ⟨u, r', hu, hk, hpast⟩
            · rw [h0] at h2; cases h2
            · rw [hu, pMore, if_pos hk] at h2
              cases h2
              exact ⟨hpast, rfl⟩
        refine ⟨hz.1, hn, ?_⟩
        intro ctx n fail hfail
        obtain ⟨x', s', h5, h6, h7⟩ := hx (.items :: ctx) n
        rw [h5]
        simp only
        rcases sync_empty h6 with h8 | h8
        · rw [h8]
          exact ⟨_, _, _, rfl, hfail _ h6, rfl, [], x', y.1, rfl, by rw [hz.2]; rfl, h7⟩
        · rw [h8]
          simp only
          obtain ⟨sh, s'', h9, h10, h11⟩ := rMore_empty f ctx h6
          rw [h9]
          exact ⟨_, _, _, rfl, h11, h10, [], x', y.1, rfl, by rw [hz.2]; rfl, h7⟩
    refine ⟨?_, ?_, ?_, ?_, ?_, ?_⟩
    · intro p a x h ha hs hg
      rw [pExpr] at h
      cases e : pPrimary f (a ++ C) with
      | none => rw [e] at h; cases h
      | some y =>
        rw [e] at h
        simp only at h
        rcases hP _ _ e ha hs hg with ⟨r1, hr1, h3⟩ | ⟨hp, hn, hx⟩
        · have hsp := sp.2.1 _ _ h3 hg
          have htk := tk.2.1 _ _ h3
          have hsol : solid r1 = true := by
            obtain ⟨c, hc, -⟩ := htk
            rw [hc] at hs
            exact solid_append hs
          rw [hr1] at h
          rcases hL _ _ _ _ h hsol hsp.2 with ⟨r2, hr2, h4⟩ | ⟨hp2, hn2, hx2⟩
          · refine .inl ⟨r2, hr2, ?_⟩
            rw [pExpr, h3]; exact h4
          · refine .inr ⟨hp2, noClose_takes htk hn2, ?_⟩
            intro ctx n
            obtain ⟨x', s', h5, h6, h7⟩ := hx2 ctx n
            refine ⟨x', s', ?_, h6, h7.takes htk⟩
            rw [rExpr_succ, agree.2.1 ctx n a _ h3 (.inr hsp.1)]
            exact h5
        · have hr := past_next hC hp
          have hxe : x = (y.1, y.2) := loop_shut (hr.imp id fun ⟨u, r', h1, h2, _⟩ => ⟨u, r', h1, h2⟩) h
          refine .inr ⟨by rw [hxe]; exact hp, hn, ?_⟩
          intro ctx n
          obtain ⟨x', b, s', h5, h6, h7⟩ := hx ctx n
          refine ⟨x', s', ?_, h6, by rw [hxe]; exact h7⟩
          rw [rExpr_succ, h5]
          cases b with
          | true => exact rLoop_empty f p ctx x' h6
          | false => rfl
    · intro a x h ha hs hg
      cases a with
      | nil => exact absurd rfl ha
      | cons t ts =>
        have hs' := solid_tail hs
        by_cases hf : t.kind = .field
        · rw [List.cons_append, pPrimary_field _ _ _ hf] at h
          have hkt : t.kind ≠ .rparen := by rw [hf]; decide
          cases ts with
          | nil =>
            have hxe : x = (.types t false, C) := by
              rcases all_next hC with h0 | ⟨u, r', hu, hk, -⟩
              · rw [h0] at h ⊢
                cases h; rfl
              · rw [hu] at h ⊢
                rw [List.nil_append, fieldTail_plain _ _ (by rw [hk]; rfl)] at h
                exact (afterField_shut (.inr ⟨u, r', rfl, hk⟩) h).1
            refine .inl ⟨[], by rw [hxe]; rfl, ?_⟩
            rw [hxe, pPrimary_field _ _ _ hf]; rfl
          | cons lo r =>
            by_cases hn : isNumKind lo.kind = true
            · obtain ⟨to_, hi, r', h1, h2, h3, rfl⟩ := fieldTail_num hn h
              match r, h1 with
              | [], h1 =>
                have := hC to_ (by rw [show C = to_ :: hi :: r' from h1]; simp)
                rw [h2] at this; cases this
              | [_], h1 =>
                have := hC hi (by
                  have h1' : C = hi :: r' := by simpa using (List.cons.inj h1).2
                  rw [h1']; simp)
                rw [this] at h3; cases h3
              | a1 :: a2 :: r1, h1 =>
                have h1' : a1 :: a2 :: (r1 ++ C) = to_ :: hi :: r' := h1
                cases h1'
                refine .inl ⟨r1, rfl, ?_⟩
                rw [pPrimary_field _ _ _ hf]
                simp [fieldTail, hn, h2, h3]
            · have hn' : isNumKind lo.kind = false := Bool.eq_false_iff.mpr hn
              rw [List.cons_append, fieldTail_plain _ _ hn'] at h
              rcases hA t (lo :: r) x h hs' (signs_tail hg) with ⟨r1, hr1, h3⟩ | ⟨hp1, hno, hx⟩
              · refine .inl ⟨r1, hr1, ?_⟩
                rw [pPrimary_field _ _ _ hf, fieldTail_plain _ _ hn']
                exact h3
              · refine .inr ⟨hp1, noClose_cons hkt hno, ?_⟩
                intro ctx n
                obtain ⟨x', b, s', h5, h6, h7⟩ := hx ctx n
                refine ⟨x', b, s', ?_, h6, h7.cons t⟩
                rw [rPrimary_field _ _ _ hf, if_neg (show ¬ isNumKind (nextKind (lo :: r)) = true from hn)]
                exact h5
        · rw [List.cons_append, pPrimary_cons] at h
          cases hk : t.kind with
          | lparen =>
            rw [hk] at h
            simp only at h
            have hop : operandEnd t.kind = false := by rw [hk]; rfl
            have hne := solid_ne hs hop
            have hg' := signs_cons hg hop
            have hkt : t.kind ≠ .rparen := by rw [hk]; decide
            cases e : pExpr f 0 (ts ++ C) with
            | none => rw [e] at h; cases h
            | some y =>
              obtain ⟨t', r⟩ := y
              rw [e] at h
              cases r with
              | nil => cases h
              | cons r ts' =>
                simp only at h
                split at h
                · rename_i hr
                  cases h
                  have close : ∀ ctx n x' s1, rExpr (f + 1) 0 (.rparen :: ctx) (.at n ts) = some (x', s1) → s1.toks = [] →
                      ∃ b s', rPrimary (f + 1 + 1) ctx (.at n (t :: ts)) = some (.paren x', b, s') ∧ s'.toks = [] := by
                    intro ctx n x' s1 h1 h2
                    rw [rPrimary_succ, at_cons, hk]
                    simp only [at_take, h1]
                    rcases match_empty ctx h2 with h3 | ⟨s2, h3, h4⟩
                    · rw [h3]; exact ⟨_, _, rfl, fail_empty _ _ h2⟩
                    · rw [h3]; exact ⟨_, _, rfl, h4⟩
                  rcases hE _ _ _ e hne hs' hg' with ⟨r1, hr1, h3⟩ | ⟨hp1, hn, hx⟩
                  · cases r1 with
                    | nil =>
                      have hC' : C = r :: ts' := hr1.symm
                      refine .inr ⟨⟨[r], by simp, hC'⟩, noClose_cons hkt (noClose_takes (tk.1 _ _ _ h3) shut_nil), ?_⟩
                      intro ctx n
                      obtain ⟨b, s', h5, h6⟩ := close ctx n _ _
                        (agree.1 0 (.rparen :: ctx) n ts _ h3 (.inr (sp.1 _ _ _ h3 hg').1)) rfl
                      exact ⟨_, b, s', h5, h6, torn_same _ (.paren t')⟩
                    | cons r' r1 =>
                      simp only [List.cons_append, List.cons.injEq] at hr1
                      obtain ⟨rfl, hr1⟩ := hr1
                      refine .inl ⟨r1, hr1, ?_⟩
                      rw [pPrimary_cons, hk]
                      simp only [h3, if_pos hr]
                  · rcases past_next hC hp1 with h0 | ⟨u, r', hu, -, hpast⟩
                    · cases h0
                    · cases hu
                      refine .inr ⟨hpast, noClose_cons hkt hn, ?_⟩
                      intro ctx n
                      obtain ⟨x', s1, h5, h6, h7⟩ := hx (.rparen :: ctx) n
                      obtain ⟨b, s', h8, h9⟩ := close ctx n _ _ h5 h6
                      exact ⟨_, b, s', h8, h9, (h7.map fun _ hm => hm.paren).cons t⟩
                · cases h
          | kNot =>
            rw [hk] at h
            simp only at h
            have hop : operandEnd t.kind = false := by rw [hk]; rfl
            have hne := solid_ne hs hop
            have hg' := signs_cons hg hop
            have hkt : t.kind ≠ .rparen := by rw [hk]; decide
            cases e : pExpr f 15 (ts ++ C) with
            | none => rw [e] at h; cases h
            | some y =>
              rw [e] at h; cases h
              rcases hE _ _ y e hne hs' hg' with ⟨r1, hr1, h3⟩ | ⟨hp1, hn, hx⟩
              · refine .inl ⟨r1, hr1, ?_⟩
                rw [pPrimary_cons, hk]
                simp only [h3]
              · refine .inr ⟨hp1, noClose_cons hkt hn, ?_⟩
                intro ctx n
                obtain ⟨x', s', h5, h6, h7⟩ := hx (.ops :: ctx) n
                refine ⟨.not_ x', true, s', ?_, h6, (h7.map fun _ hm => hm.not_).cons t⟩
                rw [rPrimary_succ, at_cons, hk]
                simp only [at_take, h5]
          | arith op =>
            rw [hk] at h
            cases op with
            | sub =>
              simp only at h
              have hop : operandEnd t.kind = false := by rw [hk]; rfl
              have hne := solid_ne hs hop
              have hg' := signs_cons hg hop
              have hkt : t.kind ≠ .rparen := by rw [hk]; decide
              have hlit : startsLit ts = true := by
                simp only [signs, hk, Bool.and_eq_true] at hg
                simpa using hg.1
              cases e : pExpr f 13 (ts ++ C) with
              | none => rw [e] at h; cases h
              | some y =>
                rw [e] at h; cases h
                rcases hE _ _ y e hne hs' hg' with ⟨r1, hr1, h3⟩ | ⟨hp1, hn, hx⟩
                · refine .inl ⟨r1, hr1, ?_⟩
                  rw [pPrimary_cons, hk]
                  simp only [h3]
                · refine .inr ⟨hp1, noClose_cons hkt hn, ?_⟩
                  intro ctx n
                  obtain ⟨x', s', h5, h6, h7⟩ := hx (.ops :: ctx) n
                  refine ⟨.neg x', true, s', ?_, h6, (h7.map fun _ hm => hm.neg).cons t⟩
                  have hm : minusAhead ctx .operand [] (RState.at n (t :: ts)).toks.tail = true := by
                    show minusAhead ctx .operand [] ts = true
                    cases ts with
                    | nil => cases hlit
                    | cons u us =>
                      rw [minus_cons, lit_step hlit]; rfl
                  rw [rPrimary_succ, at_cons, hk]
                  simp only [hm, if_true, at_take, h5]
            | _ =>
              cases h
              exact .inl ⟨t :: ts, rfl, by rw [pPrimary_cons, hk]; rfl⟩
          | fn g =>
            rw [hk] at h
            simp only at h
            have hop : operandEnd t.kind = false := by rw [hk]; rfl
            have hne := solid_ne hs hop
            have hg' := signs_cons hg hop
            have hkt : t.kind ≠ .rparen := by rw [hk]; simp
            cases e : pWordlist f (ts ++ C) with
            | none => rw [e] at h; cases h
            | some y =>
              rw [e] at h; cases h
              rcases hW _ y e hne hs' hg' with ⟨r1, hr1, h3⟩ | ⟨hp1, hn, ⟨u, us, hu, hu2, hu3⟩, hx⟩
              · refine .inl ⟨r1, hr1, ?_⟩
                rw [pPrimary_cons, hk]
                simp only [h3]
              · refine .inr ⟨hp1, noClose_cons hkt hn, ?_⟩
                intro ctx n
                obtain ⟨sh, es', s', h5, h6, h7, is, l', l, h8, h9, b, h10, -⟩ := hx (.ops :: ctx) n
                refine ⟨.func g sh es', true, s', ?_, h6, true, ?_, fun _ => ⟨[], t, u, us, g, by rw [hu]; rfl, hk, hu2, hu3⟩⟩
                · rw [rPrimary_succ, at_cons, hk]
                  simp only [at_take, h5]
                · show Mended true (.func g sh es') (.func g y.1)
                  rw [h8, h9]
                  exact .func h7 h10
          | field => exact absurd hk hf
          | _ =>
            rw [hk] at h
            cases h <;> first
              | exact .inl ⟨t :: ts, rfl, by rw [pPrimary_cons, hk]; rfl⟩
              | exact .inl ⟨ts, rfl, by rw [pPrimary_cons, hk]; rfl⟩
    · intro t a x h hs hg
      cases a with
      | nil =>
        have hxe := afterField_shut ((all_next hC).imp id fun ⟨u, r', h1, h2, _⟩ => ⟨u, r', h1, h2⟩) h
        refine .inl ⟨[], by rw [hxe.1]; rfl, ?_⟩
        rw [hxe.1]; rfl
      | cons u us =>
        rw [List.cons_append, pAfterField_cons] at h
        have hs' := solid_tail hs
        have list : ∀ (vs : List Token) (y : List Tree × List Token) (mkR : ListShape → List RTree → RTree)
            (mkT : List Tree → Tree), (∀ b sh ts t' t, sh.entered = true → Mended b t' t →
              Mended b (mkR sh (Tree.upAll ts ++ [t'])) (mkT (ts ++ [t]))) →
            pWordlist f (vs ++ C) = some y → vs ≠ [] → solid vs = true → signs true vs = true →
            (∃ r1, y.2 = r1 ++ C ∧ pWordlist f vs = some (y.1, r1)) ∨
            (Past C y.2 ∧ NoClose vs ∧ ∀ ctx n, ∃ sh es' s', rWordlist (f + 1) ctx (.at n vs) = some (sh, es', s') ∧
              s'.toks = [] ∧ Torn vs (mkR sh es') (mkT y.1)) := by
          intro vs y mkR mkT hm e h1 h2 h3
          rcases hW _ y e h1 h2 h3 with h4 | ⟨hp1, hno, -, hx⟩
          · exact .inl h4
          · refine .inr ⟨hp1, hno, ?_⟩
            intro ctx n
            obtain ⟨sh, es', s', h5, h6, h7, is, l', l, h8, h9, h10⟩ := hx ctx n
            refine ⟨sh, es', s', h5, h6, ?_⟩
            rw [h8, h9]
            exact h10.map fun b hb => hm b sh is l' l h7 hb
        cases hk : u.kind with
        | kIn =>
          rw [hk] at h
          simp only at h
          have hop : operandEnd u.kind = false := by rw [hk]; rfl
          have hkt : u.kind ≠ .rparen := by rw [hk]; decide
          cases e : pWordlist f (us ++ C) with
          | none => rw [e] at h; cases h
          | some y =>
            rw [e] at h; cases h
            rcases list us y _ _ (fun _ _ _ _ _ h1 h2 => Mended.in_ (f := t) (ng := false) h1 h2) e (solid_ne hs hop) hs' (signs_cons hg hop) with
              ⟨r1, hr1, h3⟩ | ⟨hp1, hno, hx⟩
            · refine .inl ⟨r1, hr1, ?_⟩
              rw [pAfterField_cons, hk]
              simp only [h3]
            · refine .inr ⟨hp1, noClose_cons hkt hno, ?_⟩
              intro ctx n
              obtain ⟨sh, es', s', h5, h6, h7⟩ := hx (.ops :: ctx) n
              refine ⟨_, true, s', ?_, h6, h7.cons u⟩
              rw [rField_succ, at_cons, hk]
              simp only [at_take, h5]
        | cAll =>
          rw [hk] at h
          simp only at h
          have hop : operandEnd u.kind = false := by rw [hk]; rfl
          have hkt : u.kind ≠ .rparen := by rw [hk]; decide
          cases e : pWordlist f (us ++ C) with
          | none => rw [e] at h; cases h
          | some y =>
            rw [e] at h; cases h
            rcases list us y _ _ (fun _ _ _ _ _ h1 h2 => Mended.array (f := t) (op := .containsAll) h1 h2) e (solid_ne hs hop) hs' (signs_cons hg hop) with
              ⟨r1, hr1, h3⟩ | ⟨hp1, hno, hx⟩
            · refine .inl ⟨r1, hr1, ?_⟩
              rw [pAfterField_cons, hk]
              simp only [h3]
            · refine .inr ⟨hp1, noClose_cons hkt hno, ?_⟩
              intro ctx n
              obtain ⟨sh, es', s', h5, h6, h7⟩ := hx (.ops :: ctx) n
              refine ⟨_, true, s', ?_, h6, h7.cons u⟩
              rw [rField_succ, at_cons, hk]
              simp only [at_take, h5]
        | cAny =>
          rw [hk] at h
          simp only at h
          have hop : operandEnd u.kind = false := by rw [hk]; rfl
          have hkt : u.kind ≠ .rparen := by rw [hk]; decide
          cases e : pWordlist f (us ++ C) with
          | none => rw [e] at h; cases h
          | some y =>
            rw [e] at h; cases h
            rcases list us y _ _ (fun _ _ _ _ _ h1 h2 => Mended.array (f := t) (op := .containsAny) h1 h2) e (solid_ne hs hop) hs' (signs_cons hg hop) with
              ⟨r1, hr1, h3⟩ | ⟨hp1, hno, hx⟩
            · refine .inl ⟨r1, hr1, ?_⟩
              rw [pAfterField_cons, hk]
              simp only [h3]
            · refine .inr ⟨hp1, noClose_cons hkt hno, ?_⟩
              intro ctx n
              obtain ⟨sh, es', s', h5, h6, h7⟩ := hx (.ops :: ctx) n
              refine ⟨_, true, s', ?_, h6, h7.cons u⟩
              rw [rField_succ, at_cons, hk]
              simp only [at_take, h5]
        | kNot =>
          rw [hk] at h
          have hop : operandEnd u.kind = false := by rw [hk]; rfl
          have hkt : u.kind ≠ .rparen := by rw [hk]; decide
          have hne := solid_ne hs hop
          have hg' := signs_cons hg hop
          cases us with
          | nil => exact absurd rfl hne
          | cons v vs =>
            simp only [List.cons_append] at h
            split at h
            · rename_i hv
              have hop' : operandEnd v.kind = false := by rw [hv]; rfl
              have hkt' : v.kind ≠ .rparen := by rw [hv]; decide
              cases e : pWordlist f (vs ++ C) with
              | none => rw [e] at h; cases h
              | some y =>
                rw [e] at h; cases h
                rcases list vs y _ _ (fun _ _ _ _ _ h1 h2 => Mended.in_ (f := t) (ng := true) h1 h2) e
                  (solid_ne hs' hop') (solid_tail hs') (signs_cons hg' hop') with ⟨r1, hr1, h3⟩ | ⟨hp1, hno, hx⟩
                · refine .inl ⟨r1, hr1, ?_⟩
                  rw [pAfterField_cons, hk]
                  simp only [if_pos hv, h3]
                · refine .inr ⟨hp1, noClose_cons hkt (noClose_cons hkt' hno), ?_⟩
                  intro ctx n
                  obtain ⟨sh, es', s', h5, h6, h7⟩ := hx (.ops :: ctx) n
                  refine ⟨_, true, s', ?_, h6, (h7.cons v).cons u⟩
                  rw [rField_succ, at_cons, hk]
                  simp only [at_take]
                  rw [match_at (by rw [hv]; rfl)]
                  simp only [h5]
            · cases h
        | _ => rw [hk] at h; cases h; exact .inl ⟨u :: us, rfl, by rw [pAfterField_cons, hk]⟩
    · intro p l a x h hs hg
      cases a with
      | nil =>
        have hr := all_next hC
        have hxe : x = (l, C) := loop_shut (hr.imp id fun ⟨u, r', h1, h2, _⟩ => ⟨u, r', h1, h2⟩) h
        refine .inl ⟨[], by rw [hxe]; rfl, ?_⟩
        rw [hxe, pLoop]
      | cons t ts =>
        rw [List.cons_append, pLoop] at h
        cases hb : binTok t.kind with
        | none =>
          rw [hb] at h; cases h
          exact .inl ⟨t :: ts, rfl, by rw [pLoop, hb]⟩
        | some b =>
          rw [hb] at h
          simp only at h
          split at h
          · rename_i hp
            have hop := bin_operandEnd hb
            have hne := solid_ne hs hop
            have hs' := solid_tail hs
            have hg' := signs_cons hg hop
            have hkt : t.kind ≠ .rparen := by intro h0; rw [h0] at hb; cases hb
            cases e : pExpr f (b.prec + 1) (ts ++ C) with
            | none => rw [e] at h; cases h
            | some y =>
              rw [e] at h
              simp only at h
              rcases hE _ _ _ e hne hs' hg' with ⟨r1, hr1, h3⟩ | ⟨hp1, hn, hx⟩
              · have hsp := sp.1 _ _ _ h3 hg'
                have htk := tk.1 _ _ _ h3
                have hsol : solid r1 = true := by
                  obtain ⟨c, hc, -⟩ := htk
                  rw [hc] at hs'
                  exact solid_append hs'
                rw [hr1] at h
                rcases hL _ _ _ _ h hsol hsp.2 with ⟨r2, hr2, h4⟩ | ⟨hp2, hn2, hx2⟩
                · refine .inl ⟨r2, hr2, ?_⟩
                  rw [pLoop, hb]
                  simp only [if_pos hp, h3]
                  exact h4
                · refine .inr ⟨hp2, noClose_cons hkt (noClose_takes htk hn2), ?_⟩
                  intro ctx n
                  obtain ⟨x', s', h5, h6, h7⟩ := hx2 ctx n
                  refine ⟨x', s', ?_, h6, (h7.takes htk).cons t⟩
                  rw [rLoop_succ, at_cons, hb]
                  simp only [if_pos hp, at_take]
                  rw [agree.1 _ (.ops :: ctx) n ts _ h3 (.inr hsp.1)]
                  simp only
                  rw [← up_mk]
                  exact h5
              · have hr := past_next hC hp1
                have hxe : x = (b.mk l y.1, y.2) := loop_shut (hr.imp id fun ⟨u, r', h1, h2, _⟩ => ⟨u, r', h1, h2⟩) h
                refine .inr ⟨by rw [hxe]; exact hp1, noClose_cons hkt hn, ?_⟩
                intro ctx n
                obtain ⟨x', s', h5, h6, h7⟩ := hx (.ops :: ctx) n
                refine ⟨b.mkR l.up x', s', ?_, h6, ?_⟩
                · rw [rLoop_succ, at_cons, hb]
                  simp only [if_pos hp, at_take]
                  rw [h5]
                  exact rLoop_empty f p ctx _ h6
                · rw [hxe]
                  exact (h7.map fun _ hm => hm.mk).cons t
          · rename_i hp
            cases h
            exact .inl ⟨t :: ts, rfl, by rw [pLoop, hb]; simp only [if_neg hp]⟩
    · intro a x h ha hs hg
      cases a with
      | nil => exact absurd rfl ha
      | cons t ts =>
        rw [List.cons_append, pWordlist] at h
        split at h
        · rename_i hk
          have hop : operandEnd t.kind = false := by rw [hk]; rfl
          have hne := solid_ne hs hop
          have hs' := solid_tail hs
          have hg' := signs_cons hg hop
          have hkt : t.kind ≠ .rparen := by rw [hk]; decide
          cases e : pExpr f 0 (ts ++ C) with
          | none => rw [e] at h; cases h
          | some y =>
            rw [e] at h
            simp only at h
            cases e2 : pMore f y.2 with
            | none => rw [e2] at h; cases h
            | some z =>
              rw [e2] at h; cases h
              rcases hItems ts y z e e2 hne hs' hg' with ⟨r1, r2, h1, h2, h3⟩ | ⟨h1, h2, h3⟩
              · refine .inl ⟨r2, h1, ?_⟩
                rw [pWordlist, if_pos hk, h2]
                simp only
                rw [h3]
              · refine .inr ⟨h1, noClose_cons hkt h2, ⟨t, ts, rfl, hk, h2⟩, ?_⟩
                intro ctx n
                obtain ⟨sh, es', s', h4, h5, h6, is, l', l, h8, h9, h10⟩ :=
                  h3 ctx n (fun s => (failAt ctx 103 s).2) (fun s hs => fail_empty _ _ hs)
                refine ⟨sh, es', s', ?_, h5, h6, is, l', l, h8, h9, h10.cons t⟩
                rw [rWordlist_succ, match_at (by rw [hk]; rfl)]
                simp only
                rw [sync_at (by rw [← next_append hne C]; exact starts_list e (more_ends e2))]
                exact h4
        · cases h
    · intro a x h ha hs hg
      cases a with
      | nil => exact absurd rfl ha
      | cons t ts =>
        rw [List.cons_append, pMore] at h
        split at h
        · rename_i hk
          cases h
          exact .inl ⟨ts, rfl, by rw [pMore, if_pos hk]⟩
        · rename_i hk
          split at h
          · rename_i hk2
            have hop : operandEnd t.kind = false := by rw [hk2]; rfl
            have hne := solid_ne hs hop
            have hs' := solid_tail hs
            have hg' := signs_cons hg hop
            cases e : pExpr f 0 (ts ++ C) with
            | none => rw [e] at h; cases h
            | some y =>
              rw [e] at h
              simp only at h
              cases e2 : pMore f y.2 with
              | none => rw [e2] at h; cases h
              | some z =>
                rw [e2] at h; cases h
                rcases hItems ts y z e e2 hne hs' hg' with ⟨r1, r2, h1, h2, h3⟩ | ⟨h1, h2, h3⟩
                · refine .inl ⟨r2, h1, ?_⟩
                  rw [pMore, if_neg hk, if_pos hk2, h2]
                  simp only
                  rw [h3]
                · refine .inr ⟨h1, noClose_cons hk h2, ?_⟩
                  intro ctx n
                  obtain ⟨sh, es', s', h4, h5, h6, is, l', l, h8, h9, h10⟩ :=
                    h3 ctx n (fun s => (failAt ctx 117 s).2) (fun s hs => fail_empty _ _ hs)
                  refine ⟨sh, es', s', ?_, h5, h6, is, l', l, h8, h9, h10.cons t⟩
                  rw [rMore_succ, at_cons, if_pos hk2, at_take]
                  rw [sync_at (by rw [← next_append hne C]; exact starts_list e (more_ends e2))]
                  exact h4
          · cases h

/-! ## The listener on such trees -/

/-- The same result, or (with the flag) a refusal. -/
def Same {α : Type} (b : Bool) (r' r : Result α) : Prop := r' = r ∨ (b = true ∧ r' = .error .invalidExpression)

theorem same_refl {α : Type} (b : Bool) (r : Result α) : Same b r r := .inl rfl

theorem Same.bind {α β : Type} {b : Bool} {r' r : Result α} {g' g : α → Result β} (h : Same b r' r)
    (hg : ∀ a, Same b (g' a) (g a)) : Same b (r' >>= g') (r >>= g) := by
  rcases h with rfl | ⟨hb, rfl⟩
  · cases r' with
    | error e => exact .inl rfl
    | ok a => exact hg a
  · exact .inr ⟨hb, rfl⟩

theorem Same.weak {α : Type} {b : Bool} {r' r : Result α} (h : Same b r' r) : Same true r' r :=
  h.imp id fun h => ⟨rfl, h.2⟩

theorem Mended.shape {b : Bool} {t' : RTree} {t : Tree} (h : Mended b t' t) :
    t'.isTypes = t.up.isTypes ∧ t'.isParen = t.up.isParen ∧ t'.startType = t.up.startType := by
  cases h <;> exact ⟨rfl, rfl, rfl⟩

theorem entered_children {sh : ListShape} (h : sh.entered = true) : sh.children = .ok () := by
  cases sh <;> first | rfl | cases h

theorem okBind {α β : Type} (a : α) (g : α → Result β) : (Except.ok a : Result α) >>= g = g a := rfl

theorem mapNodesR_append (df : Option JStr) (xs ys : List RTree) (st : NStack) :
    mapNodesR df (xs ++ ys) st = (do
      let (ns, st) ← mapNodesR df xs st
      let (ms, st) ← mapNodesR df ys st
      pure (ns ++ ms, st)) := by
  induction xs generalizing st with
  | nil =>
    simp only [List.nil_append, mapNodesR, okBind]
    cases mapNodesR df ys st <;> rfl
  | cons x xs ih =>
    simp only [List.cons_append, mapNodesR, ih]
    cases mapNodeR df x st with
    | error e => rfl
    | ok a =>
      simp only [okBind]
      cases mapNodesR df xs a.2 with
      | error e => rfl
      | ok c =>
        simp only [okBind]
        show _ = (do
          let (ms, st) ← mapNodesR df ys c.2
          pure ((a.1 :: c.1) ++ ms, st))
        cases mapNodesR df ys c.2 <;> rfl

theorem walkAllR_append (df : Option JStr) (xs ys : List RTree) (s : LState) :
    walkAllR df (xs ++ ys) s = walkAllR df xs s >>= walkAllR df ys := by
  induction xs generalizing s with
  | nil => rfl
  | cons x xs ih =>
    simp only [List.cons_append, walkAllR]
    cases walkR df x s with
    | error e => rfl
    | ok a => simp only [okBind]; exact ih a

theorem same_nodes (df : Option JStr) {b : Bool} {ts : List Tree} {t' : RTree} {t : Tree}
    (h : ∀ st, Same b (mapNodeR df t' st) (mapNodeR df t.up st)) (st : NStack) :
    Same b (mapNodesR df (Tree.upAll ts ++ [t']) st) (mapNodesR df (Tree.upAll (ts ++ [t])) st) := by
  rw [upAll_append, mapNodesR_append, mapNodesR_append]
  refine (same_refl _ _).bind fun a => ?_
  refine Same.bind ?_ fun c => same_refl _ _
  exact (h _).bind fun _ => same_refl _ _

theorem mended_map (df : Option JStr) {b : Bool} {t' : RTree} {t : Tree} (h : Mended b t' t) :
    ∀ st, Same b (mapNodeR df t' st) (mapNodeR df t.up st) := by
  induction h with
  | same t => exact fun st => same_refl _ _
  | paren _ _ => exact fun st => same_refl _ _
  | not_ _ _ => exact fun st => same_refl _ _
  | neg _ _ => exact fun st => same_refl _ _
  | bin _ _ => exact fun st => same_refl _ _
  | array _ _ _ => exact fun st => same_refl _ _
  | @cmp b op l t' t hm ih =>
    intro st
    have hs := hm.shape
    have hu : useStackR st l.up t' = useStackR st l.up t.up := by cases st <;> simp [useStackR, hs.2.1]
    simp only [Tree.up, mapNodeR, hu, hs.1, hs.2.2]
    split
    · exact same_refl _ _
    · split
      · exact (ih st).bind fun _ => same_refl _ _
      · exact (ih st).bind fun _ => same_refl _ _
  | @arith b op l t' t hm ih =>
    intro st
    have hs := hm.shape
    simp only [Tree.up, mapNodeR, hs.1]
    split
    · exact (same_refl _ _).bind fun _ => (ih _).bind fun _ => same_refl _ _
    · split
      · exact same_refl _ _
      · split
        · exact (ih _).bind fun _ => same_refl _ _
        · exact same_refl _ _
  | @func b g sh ts t' t he hm ih =>
    intro st
    simp only [Tree.up, mapNodeR]
    cases sh with
    | complete =>
      exact ((same_nodes df ih st).weak).bind fun _ => same_refl _ _
    | failed => exact .inr ⟨rfl, rfl⟩
    | _ => cases he
  | @in_ b f ng sh ts t' t he hm ih =>
    intro st
    simp only [Tree.up, mapNodeR, entered_children he]
    exact (same_nodes df ih st).bind fun _ => same_refl _ _

theorem mended_exit (df : Option JStr) {b : Bool} {t' : RTree} {t : Tree} (h : Mended b t' t) (s : LState) :
    Same b (exitMappedR df t' s) (exitMappedR df t.up s) :=
  (mended_map df h _).bind fun _ => same_refl _ _

theorem mended_neg (df : Option JStr) {b : Bool} {t' : RTree} {t : Tree} (h : Mended b t' t) (s : LState) :
    exitNegR df t' s = exitNegR df t.up s := by
  cases h <;> first | rfl | (rename_i t; cases t <;> rfl)

theorem mended_walk (df : Option JStr) {b : Bool} {t' : RTree} {t : Tree} (h : Mended b t' t) :
    ∀ s, Same b (walkR df t' s) (walkR df t.up s) := by
  have all : ∀ {b : Bool} {ts : List Tree} {t' : RTree} {t : Tree},
      (∀ s, Same b (walkR df t' s) (walkR df t.up s)) → ∀ s,
      Same b (walkAllR df (Tree.upAll ts ++ [t']) s) (walkAllR df (Tree.upAll (ts ++ [t])) s) := by
    intro b ts t' t h s
    rw [upAll_append, walkAllR_append, walkAllR_append]
    exact (same_refl _ _).bind fun a => (h a).bind fun _ => same_refl _ _
  induction h with
  | same t => exact fun s => same_refl _ _
  | paren _ ih => exact ih
  | not_ _ ih => exact fun s => (ih s).bind fun _ => same_refl _ _
  | neg hm ih =>
    intro s
    simp only [Tree.up, walkR]
    exact (ih s).bind fun a => .inl (mended_neg df hm a)
  | cmp hm ih =>
    intro s
    simp only [Tree.up, walkR]
    exact (same_refl _ _).bind fun a => (ih a).bind fun c => mended_exit df (.cmp hm) c
  | arith hm ih =>
    intro s
    simp only [Tree.up, walkR]
    exact (same_refl _ _).bind fun a => (ih a).bind fun c => mended_exit df (.arith hm) c
  | bin hm ih =>
    intro s
    simp only [Tree.up, walkR]
    exact (same_refl _ _).bind fun a => (ih a).bind fun c => same_refl _ _
  | func he hm ih =>
    intro s
    simp only [Tree.up, walkR]
    exact (all (fun s => (ih s).weak) s).bind fun a => mended_exit df (.func he hm) a
  | in_ he hm ih =>
    intro s
    simp only [Tree.up, walkR]
    exact (all ih s).bind fun a => mended_exit df (.in_ he hm) a
  | array he hm ih =>
    intro s
    simp only [Tree.up, walkR, exitArrayR, entered_children he]
    exact (all ih s).bind fun a => (same_nodes df (mended_map df hm) _).bind fun _ => same_refl _ _

theorem mended_listen (df : Option JStr) {b : Bool} {t' : RTree} {t : Tree} (h : Mended b t' t) :
    Same b (listenR df t') (listen df t) := by
  rw [← up_listen]
  exact (mended_walk df h _).bind fun _ => same_refl _ _

/-- A text of the grammar without the parentheses at its end. -/
theorem rParse_unclosed {C a : List Token} {t : Tree} (hC : ∀ u ∈ C, u.kind = .rparen) (h : parseTokens (a ++ C) = some t)
    (ha : a ≠ []) (hs : solid a = true) (hg : signs true a = true) :
    ∃ t' n, rParse a = some (t', n) ∧ Torn a t' t := by
  obtain ⟨f, hf⟩ := parseTokens_iff.1 h
  rcases (unclosed hC f).1 0 a _ hf ha hs hg with ⟨r1, hr1, h3⟩ | ⟨-, -, hx⟩
  · obtain ⟨rfl, -⟩ := List.append_eq_nil_iff.1 hr1.symm
    exact ⟨_, _, rParse_of (parseTokens_iff.2 ⟨f, h3⟩), torn_same _ _⟩
  · obtain ⟨x', s', h5, h6, h7⟩ := hx [.eof] 0
    rw [rParse, rExpr_fuel h5]
    simp only
    cases matchTok (· == .eof) (fun _ => false) s' with
    | none => exact ⟨_, _, rfl, h7⟩
    | some z => exact ⟨_, _, rfl, h7⟩

end BoolParser
