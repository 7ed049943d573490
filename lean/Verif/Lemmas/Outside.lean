import Verif.Lemmas.Yield
import Verif.Lemmas.Tokens
import Verif.Spec.Outside
import Verif.Props.AnyRename
/-!
# The outermost operator of a parse tree
-/

namespace BoolParser
open Spec

/-- The precedence of the outermost operator; 15 for anything that is no operator. -/
def Tree.top : Tree → Nat
  | .cmp _ _ _ => 14
  | .arith o _ _ => (BinTok.arith o).prec
  | .bin c _ _ => (BinTok.conn c).prec
  | .neg _ => 13
  | _ => 15

/-- An operand of `types`, or another lexeme that is no operator and no parenthesis. -/
def leafKind : TK → Bool
  | .lparen | .rparen | .arith _ | .cmp _ | .kAnd | .kOr | .kNot => false
  | _ => true

mutual
/-- What the parser guarantees. -/
def Tree.Ok : Tree → Prop
  | .paren t => t.Ok
  | .not_ t => t.Ok ∧ 13 ≤ t.top
  | .cmp _ l r => l.Ok ∧ r.Ok ∧ 14 ≤ l.top ∧ 13 ≤ r.top
  | .neg t => t.Ok ∧ 13 ≤ t.top
  | .arith _ l r => l.Ok ∧ r.Ok
  | .func _ items => items ≠ [] ∧ okAll items
  | .bin _ l r => l.Ok ∧ r.Ok
  | .types t e => e = true ∨ leafKind t.kind = true
  | .to_ f lo hi => leafKind f.kind = true ∧ leafKind lo.kind = true ∧ leafKind hi.kind = true
  | .in_ f _ items => leafKind f.kind = true ∧ items ≠ [] ∧ okAll items
  | .array f _ items => leafKind f.kind = true ∧ items ≠ [] ∧ okAll items
def okAll : List Tree → Prop
  | [] => True
  | t :: ts => t.Ok ∧ okAll ts
end

/-- The next token is not a binary operator of precedence at least `p`. -/
def Stops (p : Nat) (ts : List Token) : Prop := ∀ t r b, ts = t :: r → binTok t.kind = some b → b.prec < p

theorem top_mk (b : BinTok) (l r : Tree) : (b.mk l r).top = b.prec := by cases b <;> rfl

theorem prec_le (b : BinTok) : b.prec ≤ 14 := by cases b with | arith o => cases o <;> decide | _ => simp [BinTok.prec]

theorem ok_mk {b : BinTok} {l r : Tree} (hl : l.Ok) (hr : r.Ok) (h1 : b.prec ≤ l.top) (h2 : min (b.prec + 1) 13 ≤ r.top) :
    (b.mk l r).Ok := by
  cases b with
  | cmp o => exact ⟨hl, hr, h1, by simpa [BinTok.prec] using h2⟩
  | arith o => exact ⟨hl, hr⟩
  | conn c => exact ⟨hl, hr⟩

theorem lit_leaf {k : TK} (h : isLitKind k = true) : leafKind k = true := by cases k <;> first | rfl | cases h
theorem num_leaf {k : TK} (h : isNumKind k = true) : leafKind k = true := by cases k <;> first | rfl | cases h

theorem parse_shaped (f : Nat) :
    (∀ p ts x, p ≤ 15 → pExpr f p ts = some x → x.1.Ok ∧ min p 13 ≤ x.1.top ∧ Stops p x.2) ∧
    (∀ ts x, pPrimary f ts = some x → x.1.Ok ∧ 13 ≤ x.1.top ∧ Stops (x.1.top + 1) x.2) ∧
    (∀ t ts x, t.kind = .field → pAfterField f t ts = some x → x.1.Ok ∧ x.1.top = 15) ∧
    (∀ p l ts x, l.Ok → min p 13 ≤ l.top → Stops (l.top + 1) ts → pLoop f p l ts = some x → x.1.Ok ∧ min p 13 ≤ x.1.top ∧ Stops p x.2) ∧
    (∀ ts x, pWordlist f ts = some x → x.1 ≠ [] ∧ okAll x.1) ∧
    (∀ ts x, pMore f ts = some x → okAll x.1) := by
  induction f with
  | zero =>
    exact ⟨fun _ _ _ _ h => (by cases h), fun _ _ h => (by cases h), fun _ _ _ _ h => (by cases h),
      fun _ _ _ _ _ _ _ h => (by cases h), fun _ _ h => (by cases h), fun _ _ h => (by cases h)⟩
  | succ f ih =>
    obtain ⟨hE, hP, hA, hL, hW, hM⟩ := ih
    refine ⟨?_, ?_, ?_, ?_, ?_, ?_⟩
    · intro p ts x hp h
      rw [pExpr] at h
      split at h
      · rename_i t ts' e
        have h1 := hP _ _ e
        exact hL _ _ _ _ h1.1 (by have := h1.2.1; omega)
          h1.2.2 h
      · cases h
    · intro ts x h
      have hi : ∀ {t : Tree} {ts : List Token}, t.top = 15 → 13 ≤ t.top ∧ Stops (t.top + 1) ts := fun h =>
        ⟨by omega, fun u r b _ _ => by rw [h]; have := prec_le b; omega⟩
      have hA' : ∀ {t : Token} {ts : List Token} {x : Tree × List Token}, t.kind = .field → pAfterField f t ts = some x →
          x.1.Ok ∧ 13 ≤ x.1.top ∧ Stops (x.1.top + 1) x.2 := fun hk h => ⟨(hA _ _ _ hk h).1, hi (hA _ _ _ hk h).2⟩
      cases ts with
      | nil => rw [pPrimary] at h; injection h with h; subst h; exact ⟨.inl rfl, hi rfl⟩
      | cons t ts =>
        rw [pPrimary_cons] at h
        split at h
        · split at h
          · rename_i e r ts' e1
            have h1 := hE _ _ _ (by omega) e1
            split at h
            · injection h with h; subst h
              exact ⟨h1.1, hi rfl⟩
            · cases h
          · cases h
        · split at h
          · rename_i e1
            have h1 := hE _ _ _ (by omega) e1
            injection h with h; subst h
            exact ⟨⟨h1.1, le_trans (by omega) h1.2.1⟩, hi rfl⟩
          · cases h
        · split at h
          · rename_i e1
            have h1 := hE _ _ _ (by omega) e1
            injection h with h; subst h
            exact ⟨⟨h1.1, le_trans (by omega) h1.2.1⟩, Nat.le_refl 13, fun u r b e hb => by have := h1.2.2 u r b e hb; show b.prec < 14; omega⟩
          · cases h
        · split at h
          · rename_i e1
            have h1 := hW _ _ e1
            injection h with h; subst h
            exact ⟨h1, hi rfl⟩
          · cases h
        · rename_i hk
          have hf : leafKind t.kind = true := by rw [hk]; rfl
          split at h
          · split at h
            · rename_i hlo
              split at h
              · rename_i hto
                injection h with h; subst h
                exact ⟨⟨hf, num_leaf hlo, num_leaf hto.2⟩, hi rfl⟩
              · cases h
            · exact hA' hk h
          · split at h
            · cases h
            · exact hA' hk h
          · injection h with h; subst h; exact ⟨.inr hf, hi rfl⟩
        · split at h
          · rename_i hl
            injection h with h; subst h; exact ⟨.inr (lit_leaf hl), hi rfl⟩
          · split at h
            · injection h with h; subst h; exact ⟨.inl rfl, hi rfl⟩
            · cases h
    · intro t ts x hk h
      have hf : leafKind t.kind = true := by rw [hk]; rfl
      cases ts with
      | nil => rw [pAfterField] at h; injection h with h; subst h; exact ⟨.inr hf, rfl⟩
      | cons u us =>
        rw [pAfterField_cons] at h
        split at h
        · split at h
          · rename_i e1
            injection h with h; subst h
            exact ⟨⟨hf, hW _ _ e1⟩, rfl⟩
          · cases h
        · split at h
          · split at h
            · split at h
              · rename_i e1
                injection h with h; subst h
                exact ⟨⟨hf, hW _ _ e1⟩, rfl⟩
              · cases h
            · cases h
          · cases h
        · split at h
          · rename_i e1
            injection h with h; subst h
            exact ⟨⟨hf, hW _ _ e1⟩, rfl⟩
          · cases h
        · split at h
          · rename_i e1
            injection h with h; subst h
            exact ⟨⟨hf, hW _ _ e1⟩, rfl⟩
          · cases h
        · injection h with h; subst h; exact ⟨.inr hf, rfl⟩
    · intro p l ts x hl hp hs h
      cases ts with
      | nil =>
        rw [pLoop] at h; injection h with h; subst h
        exact ⟨hl, hp, fun _ _ _ h => by cases h⟩
      | cons t ts =>
        rw [pLoop] at h
        split at h
        · rename_i b hb
          have hbl := hs _ _ _ rfl hb
          split at h
          · rename_i hpb
            split at h
            · rename_i r ts' e1
              have h1 := hE _ _ _ (by have := prec_le b; omega) e1
              refine hL _ _ _ _ (ok_mk hl h1.1 (by omega) h1.2.1) ?_ ?_ h
              · rw [top_mk]; omega
              · rw [top_mk]; exact h1.2.2
            · cases h
          · rename_i hpb
            injection h with h; subst h
            refine ⟨hl, hp, ?_⟩
            intro u r b' e hb'
            injection e with e1 e2
            subst e1
            rw [hb] at hb'
            injection hb' with hb'
            subst hb'
            omega
        · rename_i hb
          injection h with h; subst h
          refine ⟨hl, hp, ?_⟩
          intro u r b' e hb'
          injection e with e1 e2
          subst e1
          rw [hb] at hb'
          cases hb'
    · intro ts x h
      cases ts with
      | nil => rw [pWordlist] at h; cases h
      | cons t ts =>
        rw [pWordlist] at h
        split at h
        · split at h
          · rename_i e1
            split at h
            · rename_i e2
              injection h with h; subst h
              exact ⟨by simp, (hE _ _ _ (by omega) e1).1, hM _ _ e2⟩
            · cases h
          · cases h
        · cases h
    · intro ts x h
      cases ts with
      | nil => rw [pMore] at h; cases h
      | cons t ts =>
        rw [pMore] at h
        split at h
        · injection h with h; subst h; trivial
        · split at h
          · split at h
            · rename_i e1
              split at h
              · rename_i e2
                injection h with h; subst h
                exact ⟨(hE _ _ _ (by omega) e1).1, hM _ _ e2⟩
              · cases h
            · cases h
          · cases h

theorem parseTokens_shaped {ts : List Token} {t : Tree} (h : parseTokens ts = some t) : t.Ok := by
  rw [parseTokens] at h
  split at h
  · rename_i e
    injection h with h; subst h
    exact ((parse_shaped _).1 _ _ _ (by omega) e).1
  · cases h

/-! ## The kinds outside parentheses -/

/-- `outside` on kinds. -/
def outsideK : Nat → List TK → List TK
  | _, [] => []
  | n, k :: ks =>
    if k = .lparen then (if n = 0 then k :: outsideK 1 ks else outsideK (n + 1) ks)
    else if k = .rparen then (if n ≤ 1 then k :: outsideK 0 ks else outsideK (n - 1) ks)
    else if n = 0 then k :: outsideK 0 ks else outsideK n ks

/-- The kinds of a tree that are outside parentheses. -/
def Tree.flat : Tree → List TK
  | .paren _ => [.lparen, .rparen]
  | .not_ t => .kNot :: t.flat
  | .cmp op l r => l.flat ++ .cmp op :: r.flat
  | .neg t => .arith .sub :: t.flat
  | .arith op l r => l.flat ++ .arith op :: r.flat
  | .func f _ => [.fn f, .lparen, .rparen]
  | .bin c l r => l.flat ++ connKind c :: r.flat
  | .types t e => if e then [] else [t.kind]
  | .to_ f lo hi => [f.kind, lo.kind, .kTo, hi.kind]
  | .in_ f ng _ => f.kind :: ((if ng then [.kNot] else []) ++ [.kIn, .lparen, .rparen])
  | .array f op _ => [f.kind, op.kind, .lparen, .rparen]

theorem outsideK_other {k : TK} (h1 : k ≠ .lparen) (h2 : k ≠ .rparen) (n : Nat) (ks : List TK) :
    outsideK n (k :: ks) = if n = 0 then k :: outsideK 0 ks else outsideK n ks := by
  rw [outsideK, if_neg h1, if_neg h2]

theorem outsideK_plain (k : TK) (h : (match k with | .lparen => false | .rparen => false | _ => true) = true) (n : Nat) (ks : List TK) :
    outsideK n (k :: ks) = if n = 0 then k :: outsideK 0 ks else outsideK n ks :=
  outsideK_other (by rintro rfl; cases h) (by rintro rfl; cases h) n ks

theorem leaf_ne {k : TK} (h : leafKind k = true) : k ≠ .lparen ∧ k ≠ .rparen := by
  constructor <;> (rintro rfl; cases h)

theorem outsideK_leaf {k : TK} (h : leafKind k = true) (n : Nat) (ks : List TK) :
    outsideK n (k :: ks) = if n = 0 then k :: outsideK 0 ks else outsideK n ks :=
  outsideK_other (leaf_ne h).1 (leaf_ne h).2 n ks

mutual
theorem outside_tree : {t : Tree} → t.Ok → ∀ ks, outsideK 0 (t.kinds ++ ks) = t.flat ++ outsideK 0 ks ∧
    ∀ n, outsideK (n + 1) (t.kinds ++ ks) = outsideK (n + 1) ks
  | .paren t, h, ks => by
    have ih := outside_tree (t := t) h
    refine ⟨?_, fun n => ?_⟩
    · rw [Tree.kinds, List.cons_append, List.append_assoc, outsideK, if_pos rfl, if_pos rfl, (ih _).2]
      simp [outsideK, Tree.flat]
    · rw [Tree.kinds, List.cons_append, List.append_assoc, outsideK, if_pos rfl, if_neg (by omega), (ih _).2]
      simp [outsideK]
  | .not_ t, h, ks => by
    have ih := outside_tree (t := t) h.1 ks
    refine ⟨?_, fun n => ?_⟩
    · rw [Tree.kinds, List.cons_append, outsideK_plain .kNot rfl, if_pos rfl, ih.1]; rfl
    · rw [Tree.kinds, List.cons_append, outsideK_plain .kNot rfl, if_neg (by omega), ih.2]
  | .neg t, h, ks => by
    have ih := outside_tree (t := t) h.1 ks
    refine ⟨?_, fun n => ?_⟩
    · rw [Tree.kinds, List.cons_append, outsideK_plain (.arith .sub) rfl, if_pos rfl, ih.1]; rfl
    · rw [Tree.kinds, List.cons_append, outsideK_plain (.arith .sub) rfl, if_neg (by omega), ih.2]
  | .cmp o l r, h, ks => by
    have il := outside_tree (t := l) h.1
    have ir := outside_tree (t := r) h.2.1 ks
    refine ⟨?_, fun n => ?_⟩
    · rw [Tree.kinds, List.append_assoc, (il _).1, List.cons_append, outsideK_plain (.cmp o) rfl, if_pos rfl, ir.1, Tree.flat,
        List.append_assoc, List.cons_append]
    · rw [Tree.kinds, List.append_assoc, (il _).2, List.cons_append, outsideK_plain (.cmp o) rfl, if_neg (by omega), ir.2]
  | .arith o l r, h, ks => by
    have il := outside_tree (t := l) h.1
    have ir := outside_tree (t := r) h.2 ks
    refine ⟨?_, fun n => ?_⟩
    · rw [Tree.kinds, List.append_assoc, (il _).1, List.cons_append, outsideK_plain (.arith o) rfl, if_pos rfl, ir.1, Tree.flat,
        List.append_assoc, List.cons_append]
    · rw [Tree.kinds, List.append_assoc, (il _).2, List.cons_append, outsideK_plain (.arith o) rfl, if_neg (by omega), ir.2]
  | .bin c l r, h, ks => by
    have il := outside_tree (t := l) h.1
    have ir := outside_tree (t := r) h.2 ks
    have h1 : connKind c ≠ .lparen := by cases c <;> exact nofun
    have h2 : connKind c ≠ .rparen := by cases c <;> exact nofun
    refine ⟨?_, fun n => ?_⟩
    · rw [Tree.kinds, List.append_assoc, (il _).1, List.cons_append, outsideK_other h1 h2, if_pos rfl, ir.1, Tree.flat,
        List.append_assoc, List.cons_append]
    · rw [Tree.kinds, List.append_assoc, (il _).2, List.cons_append, outsideK_other h1 h2, if_neg (by omega), ir.2]
  | .types t e, h, ks => by
    rcases h with rfl | h
    · exact ⟨rfl, fun n => rfl⟩
    · cases e with
      | true => exact ⟨rfl, fun n => rfl⟩
      | false =>
        refine ⟨?_, fun n => ?_⟩
        · exact (outsideK_leaf h 0 ks).trans (if_pos rfl)
        · exact (outsideK_leaf h (n + 1) ks).trans (if_neg (by omega))
  | .to_ f lo hi, h, ks => by
    refine ⟨?_, fun n => ?_⟩
    · simp only [Tree.kinds, Tree.flat, List.cons_append, List.nil_append]
      rw [outsideK_leaf h.1, if_pos rfl, outsideK_leaf h.2.1, if_pos rfl, outsideK_plain .kTo rfl, if_pos rfl,
        outsideK_leaf h.2.2, if_pos rfl]
    · simp only [Tree.kinds, List.cons_append, List.nil_append]
      rw [outsideK_leaf h.1, if_neg (by omega), outsideK_leaf h.2.1, if_neg (by omega), outsideK_plain .kTo rfl, if_neg (by omega),
        outsideK_leaf h.2.2, if_neg (by omega)]
  | .func f items, h, ks => by
    have ih := outside_list (ts := items) h.1 h.2 ks
    refine ⟨?_, fun n => ?_⟩
    · rw [Tree.kinds, List.cons_append, outsideK_plain (.fn f) rfl, if_pos rfl, ih.1]; rfl
    · rw [Tree.kinds, List.cons_append, outsideK_plain (.fn f) rfl, if_neg (by omega), ih.2]
  | .in_ f neg items, h, ks => by
    have ih := outside_list (ts := items) h.2.1 h.2.2 ks
    refine ⟨?_, fun n => ?_⟩
    · rw [Tree.kinds, List.cons_append, outsideK_leaf h.1, if_pos rfl, Tree.flat]
      cases neg with
      | false =>
        simp only [Bool.false_eq_true, if_false, List.nil_append, List.cons_append]
        rw [outsideK_plain .kIn rfl, if_pos rfl, ih.1]
      | true =>
        simp only [if_true, List.nil_append, List.cons_append]
        rw [outsideK_plain .kNot rfl, if_pos rfl, outsideK_plain .kIn rfl, if_pos rfl, ih.1]
    · rw [Tree.kinds, List.cons_append, outsideK_leaf h.1, if_neg (by omega)]
      cases neg with
      | false =>
        simp only [Bool.false_eq_true, if_false, List.nil_append, List.cons_append]
        rw [outsideK_plain .kIn rfl, if_neg (by omega), ih.2]
      | true =>
        simp only [if_true, List.nil_append, List.cons_append]
        rw [outsideK_plain .kNot rfl, if_neg (by omega), outsideK_plain .kIn rfl, if_neg (by omega), ih.2]
  | .array f op items, h, ks => by
    have ih := outside_list (ts := items) h.2.1 h.2.2 ks
    have ho : leafKind op.kind = true := by cases op <;> rfl
    refine ⟨?_, fun n => ?_⟩
    · rw [Tree.kinds, List.cons_append, outsideK_leaf h.1, if_pos rfl, List.cons_append, outsideK_leaf ho, if_pos rfl, ih.1]; rfl
    · rw [Tree.kinds, List.cons_append, outsideK_leaf h.1, if_neg (by omega), List.cons_append, outsideK_leaf ho,
        if_neg (by omega), ih.2]
theorem outside_list : {ts : List Tree} → ts ≠ [] → okAll ts → ∀ ks,
    outsideK 0 (listKinds (kindsAll ts) ++ ks) = .lparen :: .rparen :: outsideK 0 ks ∧
    ∀ n, outsideK (n + 1) (listKinds (kindsAll ts) ++ ks) = outsideK (n + 1) ks
  | [], h, _, _ => absurd rfl h
  | t :: ts, _, h, ks => by
    have ih := outside_tree (t := t) h.1
    have im := outside_more (ts := ts) h.2 ks
    refine ⟨?_, fun n => ?_⟩
    · rw [kindsAll, listKinds, List.cons_append, List.append_assoc, outsideK, if_pos rfl, if_pos rfl, (ih _).2, im 0, if_pos rfl]
    · rw [kindsAll, listKinds, List.cons_append, List.append_assoc, outsideK, if_pos rfl, if_neg (by omega), (ih _).2, im (n + 1),
        if_neg (by omega)]
theorem outside_more : {ts : List Tree} → okAll ts → ∀ ks n,
    outsideK (n + 1) (closeKinds (kindsAll ts) ++ ks) = if n = 0 then .rparen :: outsideK 0 ks else outsideK n ks
  | [], _, ks, n => by
    rw [kindsAll, closeKinds, List.cons_append, List.nil_append, outsideK, if_neg nofun, if_pos rfl]
    by_cases h : n = 0
    · rw [if_pos (by omega), if_pos h]
    · rw [if_neg (by omega), if_neg h]; rfl
  | t :: ts, h, ks, n => by
    have ih := outside_tree (t := t) h.1
    have im := outside_more (ts := ts) h.2 ks
    rw [kindsAll, closeKinds, List.cons_append, List.append_assoc, outsideK_plain .comma rfl, if_neg (by omega), (ih _).2, im n]
end

/-! ## The outermost operator -/

/-- An arithmetic operator. -/
def isArithK : TK → Bool
  | .arith _ => true
  | _ => false

/-- `hasOperator` on kinds. -/
def hasOperatorK : Bool → List TK → Bool
  | _, [] => false
  | b, k :: ks =>
    if isArithK k = true ∧ ¬ (b = true ∧ k = .arith .sub) then true
    else hasOperatorK (isBinKind k || k == .kNot) ks

theorem hasOperatorK_join {k : TK} (hk : isArithK k = false)
    (hb : (isBinKind k || k == .kNot) = true) (ys : List TK) : (xs : List TK) → (b : Bool) →
    hasOperatorK b (xs ++ k :: ys) = (hasOperatorK b xs || hasOperatorK true ys)
  | [], b => by
    have : hasOperatorK b (k :: ys) = hasOperatorK true ys := by rw [hasOperatorK, if_neg (by rw [hk]; simp), hb]
    exact this
  | x :: xs, b => by
    rw [List.cons_append, hasOperatorK, hasOperatorK]
    split
    · rfl
    · exact hasOperatorK_join hk hb ys xs _

theorem hasOperatorK_leaf {k : TK} (h : leafKind k = true) (b : Bool) (ks : List TK) :
    hasOperatorK b (k :: ks) = hasOperatorK false ks := by
  rw [hasOperatorK]
  cases k <;> first | rfl | cases h

theorem leaf_arith {k : TK} (h : leafKind k = true) (o : ArithOp) : k ≠ .arith o := by rintro rfl; cases h

/-- What binds at least as tightly as a sign has no arithmetic operator outside parentheses. -/
theorem flat_tight : {t : Tree} → t.Ok → 13 ≤ t.top → hasOperatorK true t.flat = false
  | .neg t, h, _ => by
    have := flat_tight (t := t) h.1 h.2
    rw [Tree.flat, hasOperatorK, if_neg (by simp)]
    exact this
  | .not_ t, h, _ => by
    have := flat_tight (t := t) h.1 h.2
    rw [Tree.flat, hasOperatorK, if_neg (by simp [isArithK])]
    exact this
  | .cmp p l r, h, _ => by
    have h1 := flat_tight (t := l) h.1 (by have := h.2.2.1; omega)
    have h2 := flat_tight (t := r) h.2.1 h.2.2.2
    rw [Tree.flat, hasOperatorK_join rfl rfl, h1, h2]
    rfl
  | .arith p l r, _, ht => by cases p <;> exact absurd ht (by simp [Tree.top, BinTok.prec])
  | .bin c l r, _, ht => by cases c <;> exact absurd ht (by simp [Tree.top, BinTok.prec])
  | .paren _, _, _ => rfl
  | .func _ _, _, _ => rfl
  | .types t e, h, _ => by
    cases e with
    | true => rfl
    | false =>
      rcases h with h | h
      · cases h
      · exact hasOperatorK_leaf h _ _
  | .to_ f lo hi, h, _ => by
    rw [Tree.flat, hasOperatorK_leaf h.1, hasOperatorK_leaf h.2.1, hasOperatorK_leaf rfl, hasOperatorK_leaf h.2.2]
    rfl
  | .in_ f ng _, h, _ => by
    rw [Tree.flat, hasOperatorK_leaf h.1]
    cases ng <;> rfl
  | .array f op _, h, _ => by
    rw [Tree.flat, hasOperatorK_leaf h.1]
    cases op <;> rfl

theorem flat_start : {t : Tree} → t.Ok → 14 ≤ t.top → t.flat.head? ≠ some (.arith .sub)
  | .neg t, _, h => absurd h (by simp [Tree.top])
  | .not_ t, _, _ => nofun
  | .cmp p l r, h, _ => by
    have h1 := flat_start (t := l) h.1 h.2.2.1
    rw [Tree.flat]
    cases e : l.flat with
    | nil => exact nofun
    | cons x xs => rw [e] at h1; exact h1
  | .arith p l r, _, ht => by cases p <;> exact absurd ht (by simp [Tree.top, BinTok.prec])
  | .bin c l r, _, ht => by cases c <;> exact absurd ht (by simp [Tree.top, BinTok.prec])
  | .paren _, _, _ => nofun
  | .func _ _, _, _ => nofun
  | .types t e, h, _ => by
    cases e with
    | true => exact nofun
    | false =>
      rcases h with h | h
      · cases h
      · intro e; injection e with e; exact leaf_arith h _ e
  | .to_ f lo hi, h, _ => by intro e; injection e with e; exact leaf_arith h.1 _ e
  | .in_ f ng _, h, _ => by intro e; injection e with e; exact leaf_arith h.1 _ e
  | .array f op _, h, _ => by intro e; injection e with e; exact leaf_arith h.1 _ e

/-- Arithmetic on top. -/
def Tree.computes : Tree → Bool
  | .arith _ _ _ => true
  | .neg _ => true
  | _ => false

theorem computes_of {t : Tree} (h : t.Ok) (hc : ∀ k ∈ t.flat, k ≠ .kAnd ∧ k ≠ .kOr)
    (hs : hasOperatorK true t.flat = true ∨ t.flat.head? = some (.arith .sub)) : t.computes = true := by
  have no : 14 ≤ t.top → False := by
    intro ht
    rcases hs with hs | hs
    · rw [flat_tight h (by omega)] at hs; cases hs
    · exact flat_start h ht hs
  cases t with
  | arith p l r => rfl
  | neg t => rfl
  | bin c l r =>
    have := hc (connKind c) (by simp [Tree.flat])
    cases c
    · exact absurd rfl this.2
    · exact absurd rfl this.1
  | _ => exact (no (by simp [Tree.top])).elim

theorem mapped_arith {df : Option JStr} {o : ArithOp} {l r : Tree} {st : NStack} {x : Node × NStack}
    (h : mapNode df (.arith o l r) st = .ok x) : ∃ a b, x.1 = .arith o a b := by
  rw [mapNode_arith] at h
  split at h
  · obtain ⟨a, -, h⟩ := bind_ok_inv h
    obtain ⟨b, -, h⟩ := bind_ok_inv h
    injection h with h; subst h
    exact ⟨_, _, rfl⟩
  · split at h
    · obtain ⟨a, -, h⟩ := bind_ok_inv h
      obtain ⟨b, -, h⟩ := bind_ok_inv h
      injection h with h; subst h
      exact ⟨_, _, rfl⟩
    · split at h
      · obtain ⟨a, -, h⟩ := bind_ok_inv h
        obtain ⟨b, -, h⟩ := bind_ok_inv h
        injection h with h; subst h
        exact ⟨_, _, rfl⟩
      · split at h
        · injection h with h; subst h
          exact ⟨_, _, rfl⟩
        · cases h

theorem exitNeg_top {df : Option JStr} {e : Tree} {s s' : LState} (h : exitNeg df e s = .ok s') :
    ∃ n st, s'.stack = .neg n :: st := by
  have leaf : ∀ {e : Tree} {s' : LState}, (match e with
    | .types t em => (do
      let n ← mapTypes df t em
      pure { s with stack := .neg n :: s.stack } : Result LState)
    | _ => .error .classCast) = .ok s' → ∃ n st, s'.stack = .neg n :: st := by
    intro e s' h
    split at h
    · obtain ⟨a, -, h⟩ := bind_ok_inv h
      injection h with h; subst h
      exact ⟨_, _, rfl⟩
    · cases h
  unfold exitNeg at h
  cases hs : s.stack with
  | nil =>
    simp only [hs] at h leaf
    exact leaf h
  | cons n st =>
    simp only [hs] at h leaf
    split at h
    · injection h with h; subst h
      exact ⟨_, _, rfl⟩
    · exact leaf h

theorem listen_computes {df : Option JStr} {t : Tree} (ht : t.computes = true) {n : Node} (h : listen df t = .ok n) (env : Env)
    (d : Data) : evalBool env d n = .ok false := by
  rw [listen] at h
  obtain ⟨s, h1, h2⟩ := bind_ok_inv h
  cases t with
  | arith o l r =>
    rw [walk] at h1
    obtain ⟨s1, -, h1⟩ := bind_ok_inv h1
    obtain ⟨s2, -, h1⟩ := bind_ok_inv h1
    rw [exitMapped] at h1
    obtain ⟨x, hx, h1⟩ := bind_ok_inv h1
    obtain ⟨a, b, e⟩ := mapped_arith hx
    injection h1 with h1; subst h1
    rw [exitParse] at h2
    injection h2 with h2; subst h2
    rw [e, evalBool]
  | neg t =>
    rw [walk] at h1
    obtain ⟨s1, -, h1⟩ := bind_ok_inv h1
    obtain ⟨a, st, e⟩ := exitNeg_top h1
    rw [exitParse, e] at h2
    injection h2 with h2; subst h2
    rw [evalBool]
  | _ => cases ht

/-! ## Lexemes -/

theorem outside_toks : {ts : List Token} → (∀ t ∈ ts, Classified t.text t.kind) → ∀ n, ∃ os : List Token,
    (∀ t ∈ os, Classified t.text t.kind) ∧ os.map Token.text = outside n (ts.map Token.text) ∧
    os.map Token.kind = outsideK n (ts.map Token.kind)
  | [], _, _ => ⟨[], by simp, rfl, rfl⟩
  | t :: ts, h, n => by
    have h0 := h t (by simp)
    have hl : t.text = j!"(" ↔ t.kind = .lparen := by
      constructor
      · intro e; rw [e] at h0; exact classified_one h0 (.table (by decide +kernel))
      · intro e; rw [e] at h0
        have : ∀ p ∈ tokenTable, p.2 = .lparen → p.1 = j!"(" := by decide +kernel
        cases h0 with
        | table h => exact this _ h rfl
    have hr : t.text = j!")" ↔ t.kind = .rparen := by
      constructor
      · intro e; rw [e] at h0; exact classified_one h0 (.table (by decide +kernel))
      · intro e; rw [e] at h0
        have : ∀ p ∈ tokenTable, p.2 = .rparen → p.1 = j!")" := by decide +kernel
        cases h0 with
        | table h => exact this _ h rfl
    have ih := outside_toks (ts := ts) (fun u hu => h u (by simp [hu]))
    simp only [List.map_cons, outside, outsideK, hl, hr]
    have more : ∀ m, ∃ os : List Token, (∀ t ∈ os, Classified t.text t.kind) ∧
        os.map Token.text = t.text :: outside m (ts.map Token.text) ∧ os.map Token.kind = t.kind :: outsideK m (ts.map Token.kind) := by
      intro m
      obtain ⟨os, a, b, c⟩ := ih m
      exact ⟨t :: os, by simpa [h0] using a, by simp [b], by simp [c]⟩
    split
    · split
      · exact more 1
      · exact ih _
    · split
      · split
        · exact more 0
        · exact ih _
      · split
        · exact more 0
        · exact ih _

theorem kind_in {p : TK → Bool} {xs : List JStr} (h1 : ∀ q ∈ tokenTable, p q.2 = true → q.1 ∈ xs)
    (h2 : ∀ x ∈ xs, ∃ q ∈ tokenTable, q.1 = x ∧ p q.2 = true)
    (h3 : p .integer = false ∧ p .decimal = false ∧ p .version = false ∧ p .word = false ∧ p .field = false ∧ p .date = false ∧
      p .datetime = false) {t : Token} (hc : Classified t.text t.kind) : p t.kind = true ↔ t.text ∈ xs := by
  constructor
  · intro e
    obtain ⟨k, x⟩ := t
    simp only at hc e ⊢
    obtain ⟨a1, a2, a3, a4, a5, a6, a7⟩ := h3
    cases hc with
    | table h => exact h1 _ h e
    | _ => simp_all
  · intro hx
    obtain ⟨q, hq, hx', hk⟩ := h2 _ hx
    have : Classified t.text q.2 := .table (by rw [← hx']; exact hq)
    rw [classified_one hc this, hk]

end BoolParser
