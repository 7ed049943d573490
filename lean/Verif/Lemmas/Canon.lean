import Verif.Lemmas.Parsing
import Verif.Lemmas.Listening
import Verif.Model.Api
/-!
# The spelling of keywords does not matter

The parser looks at token kinds only, the listener at kinds and at the texts of names and literals.
-/

namespace BoolParser
open Spec (cmpText arithText connText fnText arrText)

mutual
/-- Replace every token of a tree. -/
def Tree.mapTok (φ : Token → Token) : Tree → Tree
  | .paren t => .paren (t.mapTok φ)
  | .not_ t => .not_ (t.mapTok φ)
  | .cmp op l r => .cmp op (l.mapTok φ) (r.mapTok φ)
  | .neg t => .neg (t.mapTok φ)
  | .arith op l r => .arith op (l.mapTok φ) (r.mapTok φ)
  | .func f items => .func f (Tree.mapToks φ items)
  | .bin c l r => .bin c (l.mapTok φ) (r.mapTok φ)
  | .types t e => .types (φ t) e
  | .to_ f lo hi => .to_ (φ f) (φ lo) (φ hi)
  | .in_ f ng items => .in_ (φ f) ng (Tree.mapToks φ items)
  | .array f op items => .array (φ f) op (Tree.mapToks φ items)
def Tree.mapToks (φ : Token → Token) : List Tree → List Tree
  | [] => []
  | t :: ts => t.mapTok φ :: Tree.mapToks φ ts
end

/-- Image of a parser result. -/
def mapRes (φ : Token → Token) (r : Option (Tree × List Token)) : Option (Tree × List Token) :=
  r.map (fun p => (p.1.mapTok φ, p.2.map φ))

def mapResL (φ : Token → Token) (r : Option (List Tree × List Token)) : Option (List Tree × List Token) :=
  r.map (fun p => (Tree.mapToks φ p.1, p.2.map φ))

theorem BinTok.mk_mapTok (φ : Token → Token) (b : BinTok) (l r : Tree) :
    (b.mk l r).mapTok φ = b.mk (l.mapTok φ) (r.mapTok φ) := by
  cases b <;> rfl

/-- All parser functions at fuel `f` commute with a kind-preserving replacement of tokens. -/
structure Equiv (φ : Token → Token) (f : Nat) : Prop where
  expr : ∀ p ts, pExpr f p (ts.map φ) = mapRes φ (pExpr f p ts)
  prim : ∀ ts, pPrimary f (ts.map φ) = mapRes φ (pPrimary f ts)
  after : ∀ t ts, pAfterField f (φ t) (ts.map φ) = mapRes φ (pAfterField f t ts)
  loop : ∀ p l ts, pLoop f p (l.mapTok φ) (ts.map φ) = mapRes φ (pLoop f p l ts)
  wl : ∀ ts, pWordlist f (ts.map φ) = mapResL φ (pWordlist f ts)
  more : ∀ ts, pMore f (ts.map φ) = mapResL φ (pMore f ts)

theorem equiv_all {φ : Token → Token} (hk : ∀ t, (φ t).kind = t.kind) (he : φ eofTok = eofTok) :
    ∀ f, Equiv φ f := by
  intro f
  induction f with
  | zero =>
    constructor <;> intros <;> rfl
  | succ f ih =>
    constructor
    · intro p ts
      rw [pExpr, pExpr, ih.prim]
      cases pPrimary f ts with
      | none => rfl
      | some r => exact ih.loop _ _ _
    · intro ts
      cases ts with
      | nil => simp [pPrimary, mapRes, Tree.mapTok, he]
      | cons t ts =>
        rw [List.map_cons, pPrimary_cons, pPrimary_cons, hk]
        cases hkk : t.kind with
        | lparen =>
          simp only
          rw [ih.expr]
          cases pExpr f 0 ts with
          | none => rfl
          | some r =>
            obtain ⟨e, rest⟩ := r
            cases rest with
            | nil => rfl
            | cons r rest =>
              simp only [mapRes, Option.map_some, List.map_cons, hk]
              split <;> rfl
        | kNot =>
          simp only
          rw [ih.expr]
          cases pExpr f 15 ts <;> rfl
        | arith op =>
          cases op with
          | sub =>
            simp only
            rw [ih.expr]
            cases pExpr f 13 ts <;> rfl
          | _ => rfl
        | fn g =>
          simp only
          rw [ih.wl]
          cases pWordlist f ts <;> rfl
        | field =>
          show fieldTail f (φ t) (ts.map φ) = mapRes φ (fieldTail f t ts)
          match ts with
          | [] => rfl
          | [a] =>
            simp only [fieldTail, List.map_cons, List.map_nil, hk]
            split
            · rfl
            · exact ih.after t [a]
          | [a, b] =>
            simp only [fieldTail, List.map_cons, List.map_nil, hk]
            split
            · rfl
            · exact ih.after t [a, b]
          | a :: b :: c :: ts =>
            simp only [fieldTail, List.map_cons, hk]
            split
            · split <;> rfl
            · exact ih.after t (a :: b :: c :: ts)
        | _ => rfl
    · intro t ts
      cases ts with
      | nil => rfl
      | cons u us =>
        rw [List.map_cons, pAfterField_cons, pAfterField_cons, hk]
        cases u.kind with
        | kIn =>
          simp only
          rw [ih.wl]
          cases pWordlist f us <;> rfl
        | kNot =>
          cases us with
          | nil => rfl
          | cons v vs =>
            simp only [List.map_cons, hk]
            split
            · rw [ih.wl]
              cases pWordlist f vs <;> rfl
            · rfl
        | cAll =>
          simp only
          rw [ih.wl]
          cases pWordlist f us <;> rfl
        | cAny =>
          simp only
          rw [ih.wl]
          cases pWordlist f us <;> rfl
        | _ => rfl
    · intro p l ts
      cases ts with
      | nil => rfl
      | cons t ts =>
        rw [List.map_cons, pLoop, pLoop, hk]
        cases binTok t.kind with
        | none => rfl
        | some b =>
          simp only
          split
          · rw [ih.expr]
            cases pExpr f (b.prec + 1) ts with
            | none => rfl
            | some r => 
              simp only [mapRes, Option.map_some]
              rw [← BinTok.mk_mapTok]; exact ih.loop _ _ _
          · rfl
    · intro ts
      cases ts with
      | nil => rfl
      | cons t ts =>
        rw [List.map_cons, pWordlist, pWordlist, hk]
        split
        · rw [ih.expr]
          cases pExpr f 0 ts with
          | none => rfl
          | some r =>
            simp only [mapRes, Option.map_some]
            rw [ih.more]
            cases pMore f r.2 <;> rfl
        · rfl
    · intro ts
      cases ts with
      | nil => rfl
      | cons t ts =>
        rw [List.map_cons, pMore, pMore, hk]
        split
        · rfl
        · split
          · rw [ih.expr]
            cases pExpr f 0 ts with
            | none => rfl
            | some r =>
              simp only [mapRes, Option.map_some]
              rw [ih.more]
              cases pMore f r.2 <;> rfl
          · rfl

/-- The parser commutes with a kind-preserving replacement of tokens. -/
theorem parseTokens_map {φ : Token → Token} (hk : ∀ t, (φ t).kind = t.kind) (he : φ eofTok = eofTok)
    (ts : List Token) : parseTokens (ts.map φ) = (parseTokens ts).map (Tree.mapTok φ) := by
  have e : parseFuel (ts.map φ) = parseFuel ts := by simp [parseFuel]
  rw [parseTokens, parseTokens, e, (equiv_all hk he _).expr]
  cases pExpr (parseFuel ts) 0 ts with
  | none => rfl
  | some r =>
    obtain ⟨t, rest⟩ := r
    cases rest <;> rfl

/-! ### Canonical spelling -/

/-- The canonical text of a token: keywords in their canonical spelling, everything else as it is. -/
def canonText (t : Token) : JStr :=
  match t.kind with
  | .kIn => j!"IN"
  | .kTo => j!"TO"
  | .kAnd => j!"AND"
  | .kOr => j!"OR"
  | .kNot => j!"NOT"
  | .kTrue => if isTrueText t.text then j!"true" else t.text
  | .kFalse => if isTrueText t.text then t.text else j!"false"
  | .cAll => j!"CONTAINS_ALL"
  | .cAny => j!"CONTAINS_ANY"
  | .fn f => fnText f
  | .arith op => arithText op
  | .cmp op => cmpText op
  | _ => t.text

def canon (t : Token) : Token := ⟨t.kind, canonText t⟩

theorem canon_kind (t : Token) : (canon t).kind = t.kind := rfl
theorem canon_eof : canon eofTok = eofTok := rfl

theorem canon_tokType (t : Token) : tokType (canon t) = tokType t := by
  cases t with
  | mk k s => cases k <;> rfl

theorem canon_field {t : Token} (h : t.kind = .field) : canon t = t := by
  cases t with
  | mk k s => simp only at h; subst h; rfl

theorem canon_convert {t : Token} (h : isLitKind t.kind = true ∨ t.kind = .field) :
    convertValue (canon t).text (tokType (canon t)) = convertValue t.text (tokType t) := by
  cases t with
  | mk k s =>
    cases k <;> first
      | rfl
      | (exfalso; revert h; simp [isLitKind]; done)
      | skip
    · simp only [canon, canonText, tokType, convertValue]
      split
      · rename_i h'; rw [h']; rfl
      · rfl
    · simp only [canon, canonText, tokType, convertValue]
      split
      · rfl
      · rename_i h'; rw [Bool.not_eq_true] at h'; rw [h']; rfl

/-- Nothing at all. -/
def Tree.isBlank : Tree → Bool
  | .types _ e => e
  | _ => false

mutual
/-- Every token of a name or literal position is a name or literal. -/
def Tree.sane : Tree → Bool
  | .paren t => t.sane
  | .not_ t => !t.isBlank && t.sane
  | .cmp _ l r => l.sane && r.sane
  | .neg t => t.sane
  | .arith _ l r => l.sane && r.sane
  | .func _ items => Tree.sanes items
  | .bin _ l r => l.sane && r.sane
  | .types t e => e || (isLitKind t.kind || t.kind == .field)
  | .to_ f lo hi => f.kind == .field && (isNumKind lo.kind && isNumKind hi.kind)
  | .in_ f _ items => f.kind == .field && Tree.sanes items
  | .array f _ items => f.kind == .field && Tree.sanes items
def Tree.sanes : List Tree → Bool
  | [] => true
  | t :: ts => t.sane && Tree.sanes ts
end

@[simp] theorem isTypes_mapTok (φ : Token → Token) (t : Tree) : (t.mapTok φ).isTypes = t.isTypes := by
  cases t <;> rfl
@[simp] theorem isParen_mapTok (φ : Token → Token) (t : Tree) : (t.mapTok φ).isParen = t.isParen := by
  cases t <;> rfl

@[simp] theorem cls_mapTok (φ : Token → Token) : (t : Tree) → (t.mapTok φ).cls = t.cls
  | .paren t => by rw [Tree.mapTok, Tree.cls, Tree.cls, cls_mapTok φ t]
  | .not_ _ => rfl
  | .cmp _ _ _ => rfl
  | .neg _ => rfl
  | .arith _ _ _ => rfl
  | .func _ _ => rfl
  | .bin _ _ _ => rfl
  | .types _ _ => rfl
  | .to_ _ _ _ => rfl
  | .in_ _ _ _ => rfl
  | .array _ _ _ => rfl

@[simp] theorem startType_canon : (t : Tree) → (t.mapTok canon).startType = t.startType
  | .paren _ => rfl
  | .not_ _ => rfl
  | .cmp _ l _ => by rw [Tree.mapTok, Tree.startType, Tree.startType, startType_canon l]
  | .neg _ => rfl
  | .arith _ l _ => by rw [Tree.mapTok, Tree.startType, Tree.startType, startType_canon l]
  | .func _ _ => rfl
  | .bin _ l _ => by rw [Tree.mapTok, Tree.startType, Tree.startType, startType_canon l]
  | .types t _ => canon_tokType t
  | .to_ _ _ _ => rfl
  | .in_ _ _ _ => rfl
  | .array _ _ _ => rfl

@[simp] theorem all_isTypes_mapToks (φ : Token → Token) (ts : List Tree) :
    (Tree.mapToks φ ts).all Tree.isTypes = ts.all Tree.isTypes := by
  induction ts with
  | nil => rfl
  | cons t ts ih => simp [Tree.mapToks, ih]

@[simp] theorem isEmpty_mapToks (φ : Token → Token) (ts : List Tree) :
    (Tree.mapToks φ ts).isEmpty = ts.isEmpty := by
  cases ts <;> rfl

@[simp] theorem lean_mapTok (φ : Token → Token) : (t : Tree) → (t.mapTok φ).lean = t.lean
  | .paren t => by rw [Tree.mapTok, Tree.lean, Tree.lean, lean_mapTok φ t]
  | .not_ t => by rw [Tree.mapTok, Tree.lean, Tree.lean, lean_mapTok φ t]
  | .cmp _ l r => by
    simp only [Tree.mapTok, Tree.lean, lean_mapTok φ l, lean_mapTok φ r, isTypes_mapTok]
  | .neg t => by rw [Tree.mapTok, Tree.lean, Tree.lean, lean_mapTok φ t]
  | .arith _ l r => by simp only [Tree.mapTok, Tree.lean, lean_mapTok φ l, lean_mapTok φ r]
  | .func _ items => by simp only [Tree.mapTok, Tree.lean, all_isTypes_mapToks]
  | .bin _ l r => by simp only [Tree.mapTok, Tree.lean, lean_mapTok φ l, lean_mapTok φ r]
  | .types _ _ => rfl
  | .to_ _ _ _ => rfl
  | .in_ _ _ items => by simp only [Tree.mapTok, Tree.lean, all_isTypes_mapToks]
  | .array _ _ items => by simp only [Tree.mapTok, Tree.lean, all_isTypes_mapToks]

theorem tokNode_canon {df : Option JStr} {t : Token} {e : Bool}
    (h : e = true ∨ isLitKind t.kind = true ∨ t.kind = .field) :
    tokNode df (canon t) e = tokNode df t e := by
  by_cases hf : t.kind = .field
  · rw [canon_field hf]
  · unfold tokNode mapTypes
    rw [canon_kind, if_neg hf, if_neg hf]
    cases e with
    | true => rfl
    | false =>
      have h' : isLitKind t.kind = true ∨ t.kind = .field := by simpa using h
      simp only [Bool.false_eq_true, if_false]
      rw [canon_convert h', canon_tokType]

theorem tokOk_canon {t : Token} (h : isLitKind t.kind = true ∨ t.kind = .field) :
    tokOk (canon t) = tokOk t := by
  unfold tokOk; rw [canon_convert h]

theorem tokVal_canon {t : Token} (h : isLitKind t.kind = true ∨ t.kind = .field) :
    tokVal (canon t) = tokVal t := by
  unfold tokVal; rw [canon_convert h]

theorem num_lit {k : TK} (h : isNumKind k = true) : isLitKind k = true := by
  cases k <;> first | rfl | cases h

theorem typesOk_canon {t : Token} {e : Bool} (h : e = true ∨ isLitKind t.kind = true ∨ t.kind = .field) :
    typesOk (canon t) e = typesOk t e := by
  cases e with
  | true => simp [typesOk]
  | false => rw [typesOk, typesOk, canon_kind, tokOk_canon (by simpa using h)]

theorem treeVal_canon {t : Tree} (h : t.sane = true) (hb : t.isBlank = false) :
    (t.mapTok canon).tokVal = t.tokVal := by
  cases t with
  | types u e =>
    simp only [Tree.isBlank] at hb
    simp only [Tree.sane, hb, Bool.false_or, Bool.or_eq_true, beq_iff_eq] at h
    exact tokVal_canon h
  | _ => rfl

theorem treeOk_canon {t : Tree} (h : t.sane = true) (hb : t.isBlank = false) :
    (t.mapTok canon).tokOk = t.tokOk := by
  cases t with
  | types u e =>
    simp only [Tree.isBlank] at hb
    simp only [Tree.sane, hb, Bool.false_or, Bool.or_eq_true, beq_iff_eq] at h
    exact tokOk_canon h
  | _ => rfl

mutual
theorem nodeOf_canon (df : Option JStr) : (t : Tree) → t.sane = true → nodeOf df (t.mapTok canon) = nodeOf df t
  | .paren t, h => by
    rw [Tree.sane] at h
    rw [Tree.mapTok, nodeOf, nodeOf, nodeOf_canon df t h]
  | .not_ t, h => by
    rw [Tree.sane, Bool.and_eq_true] at h
    rw [Tree.mapTok, nodeOf, nodeOf, nodeOf_canon df t h.2, isTypes_mapTok, startType_canon]
    rw [treeVal_canon h.2 (by simpa using h.1)]
  | .cmp _ l r, h => by
    rw [Tree.sane, Bool.and_eq_true] at h
    simp only [Tree.mapTok, nodeOf, nodeOf_canon df l h.1, nodeOf_canon df r h.2, isTypes_mapTok, startType_canon]
  | .neg t, h => by
    rw [Tree.sane] at h
    rw [Tree.mapTok, nodeOf, nodeOf, nodeOf_canon df t h]
  | .arith _ l r, h => by
    rw [Tree.sane, Bool.and_eq_true] at h
    simp only [Tree.mapTok, nodeOf, nodeOf_canon df l h.1, nodeOf_canon df r h.2]
  | .func _ items, h => by
    rw [Tree.sane] at h
    simp only [Tree.mapTok, nodeOf, nodesOf_canon df items h]
  | .bin _ l r, h => by
    rw [Tree.sane, Bool.and_eq_true] at h
    simp only [Tree.mapTok, nodeOf, nodeOf_canon df l h.1, nodeOf_canon df r h.2]
  | .types t e, h => by
    simp only [Tree.sane, Bool.or_eq_true, beq_iff_eq] at h
    rw [Tree.mapTok, nodeOf, nodeOf, tokNode_canon h]
  | .to_ f lo hi, h => by
    simp only [Tree.sane, Bool.and_eq_true, beq_iff_eq] at h
    simp only [Tree.mapTok, nodeOf, tokVal_canon (.inl (num_lit h.2.1)), tokVal_canon (.inl (num_lit h.2.2)),
      canon_field h.1, canon_tokType]
  | .in_ f ng items, h => by
    simp only [Tree.sane, Bool.and_eq_true, beq_iff_eq] at h
    simp only [Tree.mapTok, nodeOf, nodesOf_canon df items h.2, canon_field h.1]
  | .array f op items, h => by
    simp only [Tree.sane, Bool.and_eq_true, beq_iff_eq] at h
    simp only [Tree.mapTok, nodeOf, nodesOf_canon df items h.2, canon_field h.1]
theorem nodesOf_canon (df : Option JStr) : (ts : List Tree) → Tree.sanes ts = true →
    nodesOf df (Tree.mapToks canon ts) = nodesOf df ts
  | [], _ => rfl
  | t :: ts, h => by
    rw [Tree.sanes, Bool.and_eq_true] at h
    rw [Tree.mapToks, nodesOf, nodesOf, nodeOf_canon df t h.1, nodesOf_canon df ts h.2]
end

mutual
theorem argOk_canon : (t : Tree) → t.sane = true → argOk (t.mapTok canon) = argOk t
  | .types t e, h => by
    simp only [Tree.sane, Bool.or_eq_true, beq_iff_eq] at h
    rw [Tree.mapTok, argOk, argOk, typesOk_canon h]
  | .arith _ l r, h => by
    rw [Tree.sane, Bool.and_eq_true] at h
    simp only [Tree.mapTok, argOk, isTypes_mapTok, argOk_canon l h.1, argOk_canon r h.2]
  | .func _ items, h => by
    rw [Tree.sane] at h
    simp only [Tree.mapTok, argOk, argsOk_canon items h]
  | .paren _, _ => rfl
  | .not_ _, _ => rfl
  | .cmp _ _ _, _ => rfl
  | .neg _, _ => rfl
  | .bin _ _ _, _ => rfl
  | .to_ _ _ _, _ => rfl
  | .in_ _ _ _, _ => rfl
  | .array _ _ _, _ => rfl
theorem argsOk_canon : (ts : List Tree) → Tree.sanes ts = true → argsOk (Tree.mapToks canon ts) = argsOk ts
  | [], _ => rfl
  | t :: ts, h => by
    rw [Tree.sanes, Bool.and_eq_true] at h
    rw [Tree.mapToks, argsOk, argsOk, argOk_canon t h.1, argsOk_canon ts h.2]
end

@[simp] theorem after_mapTok (φ : Token → Token) (top : Top) (t : Tree) :
    (t.mapTok φ).after top = t.after top := by
  simp [Tree.after]

theorem sup_canon : (t : Tree) → (top : Top) → t.sane = true → Sup top (t.mapTok canon) = Sup top t
  | .paren t, top, h => by
    rw [Tree.sane] at h
    rw [Tree.mapTok, Sup, Sup, sup_canon t top h, isTypes_mapTok]
  | .not_ t, top, h => by
    rw [Tree.sane, Bool.and_eq_true] at h
    rw [Tree.mapTok, Sup, Sup, sup_canon t top h.2, isTypes_mapTok, treeOk_canon h.2 (by simpa using h.1)]
  | .cmp _ l r, top, h => by
    rw [Tree.sane, Bool.and_eq_true] at h
    simp only [Tree.mapTok, Sup, isTypes_mapTok, isParen_mapTok, cls_mapTok, sup_canon l top h.1,
      sup_canon r top h.2, argOk_canon l h.1, argOk_canon r h.2]
  | .neg t, top, h => by
    rw [Tree.sane] at h
    rw [Tree.mapTok, Sup, Sup, sup_canon t top h, isTypes_mapTok, cls_mapTok]
  | .arith _ l r, top, h => by
    rw [Tree.sane, Bool.and_eq_true] at h
    simp only [Tree.mapTok, Sup, isTypes_mapTok, lean_mapTok, after_mapTok, sup_canon l _ h.1, sup_canon r _ h.2]
  | .func _ items, top, h => by
    rw [Tree.sane] at h
    simp only [Tree.mapTok, Sup, argsOk_canon items h]
  | .bin _ l r, top, h => by
    rw [Tree.sane, Bool.and_eq_true] at h
    simp only [Tree.mapTok, Sup, isTypes_mapTok, lean_mapTok, after_mapTok, sup_canon l _ h.1, sup_canon r _ h.2]
  | .types t e, top, h => by
    simp only [Tree.sane, Bool.or_eq_true, beq_iff_eq] at h
    rw [Tree.mapTok, Sup, Sup, typesOk_canon h]
  | .to_ f lo hi, top, h => by
    simp only [Tree.sane, Bool.and_eq_true, beq_iff_eq] at h
    simp only [Tree.mapTok, Sup, tokOk_canon (.inl (num_lit h.2.1)), tokOk_canon (.inl (num_lit h.2.2))]
  | .in_ f ng items, top, h => by
    simp only [Tree.sane, Bool.and_eq_true, beq_iff_eq] at h
    simp only [Tree.mapTok, Sup, argsOk_canon items h.2]
  | .array f op items, top, h => by
    simp only [Tree.sane, Bool.and_eq_true, beq_iff_eq] at h
    simp only [Tree.mapTok, Sup, argsOk_canon items h.2]

mutual
theorem sane_mapTok {φ : Token → Token} (hk : ∀ t, (φ t).kind = t.kind) : (t : Tree) →
    (t.mapTok φ).sane = t.sane
  | .paren t => by rw [Tree.mapTok, Tree.sane, Tree.sane, sane_mapTok hk t]
  | .not_ t => by
    rw [Tree.mapTok, Tree.sane, Tree.sane, sane_mapTok hk t]
    cases t <;> rfl
  | .cmp _ l r => by rw [Tree.mapTok, Tree.sane, Tree.sane, sane_mapTok hk l, sane_mapTok hk r]
  | .neg t => by rw [Tree.mapTok, Tree.sane, Tree.sane, sane_mapTok hk t]
  | .arith _ l r => by rw [Tree.mapTok, Tree.sane, Tree.sane, sane_mapTok hk l, sane_mapTok hk r]
  | .func _ items => by rw [Tree.mapTok, Tree.sane, Tree.sane, sanes_mapTok hk items]
  | .bin _ l r => by rw [Tree.mapTok, Tree.sane, Tree.sane, sane_mapTok hk l, sane_mapTok hk r]
  | .types t e => by rw [Tree.mapTok, Tree.sane, Tree.sane, hk]
  | .to_ f lo hi => by rw [Tree.mapTok, Tree.sane, Tree.sane, hk, hk, hk]
  | .in_ f ng items => by rw [Tree.mapTok, Tree.sane, Tree.sane, sanes_mapTok hk items, hk]
  | .array f op items => by rw [Tree.mapTok, Tree.sane, Tree.sane, sanes_mapTok hk items, hk]
theorem sanes_mapTok {φ : Token → Token} (hk : ∀ t, (φ t).kind = t.kind) : (ts : List Tree) →
    Tree.sanes (Tree.mapToks φ ts) = Tree.sanes ts
  | [] => rfl
  | t :: ts => by rw [Tree.mapToks, Tree.sanes, Tree.sanes, sane_mapTok hk t, sanes_mapTok hk ts]
end

theorem blank_WF {p : Nat} {t : Tree} (h : Tree.WF p t = true) : t.isBlank = false := by
  cases t <;> try rfl
  rw [Tree.WF, Bool.and_eq_true] at h
  simpa [Tree.isBlank] using h.1

theorem omitted_sane {op : CmpOp} {t : Tree} (h : t.isOmitted op = true) : t.sane = true := by
  cases t with
  | types u e => cases e with
    | true => rfl
    | false => cases h
  | _ => cases h

mutual
theorem sane_of_WF : (t : Tree) → (p : Nat) → Tree.WF p t = true → t.sane = true
  | .paren t, p, h => by
    rw [Tree.WF] at h
    rw [Tree.sane]; exact sane_of_WF t 0 h
  | .not_ t, p, h => by
    rw [Tree.WF] at h
    rw [Tree.sane, sane_of_WF t _ h, blank_WF h]; rfl
  | .cmp _ l r, p, h => by
    rw [Tree.WF, Bool.and_eq_true, Bool.and_eq_true, Bool.or_eq_true, Bool.and_eq_true] at h
    rw [Tree.sane, sane_of_WF r _ h.2.2]
    rcases h.2.1 with h1 | h1
    · rw [omitted_sane h1]; rfl
    · rw [sane_of_WF l _ h1.1]; rfl
  | .neg t, p, h => by
    rw [Tree.WF] at h
    rw [Tree.sane]; exact sane_of_WF t _ h
  | .arith _ l r, p, h => by
    simp only [Tree.WF, Bool.and_eq_true] at h
    rw [Tree.sane, sane_of_WF l _ h.2.1, sane_of_WF r _ h.2.2.2]; rfl
  | .func _ items, p, h => by
    rw [Tree.WF, Bool.and_eq_true] at h
    rw [Tree.sane]; exact sanes_of_WF items h.2
  | .bin _ l r, p, h => by
    simp only [Tree.WF, Bool.and_eq_true] at h
    rw [Tree.sane, sane_of_WF l _ h.2.1, sane_of_WF r _ h.2.2.2]; rfl
  | .types t e, p, h => by
    rw [Tree.WF, Bool.and_eq_true] at h
    rw [Tree.sane, h.2]; simp
  | .to_ f lo hi, p, h => by
    rw [Tree.WF] at h
    rw [Tree.sane]; exact h
  | .in_ f ng items, p, h => by
    simp only [Tree.WF, Bool.and_eq_true] at h
    rw [Tree.sane, sanes_of_WF items h.2.2, h.1]; rfl
  | .array f op items, p, h => by
    simp only [Tree.WF, Bool.and_eq_true] at h
    rw [Tree.sane, sanes_of_WF items h.2.2, h.1]; rfl
theorem sanes_of_WF : (ts : List Tree) → Tree.WFs ts = true → Tree.sanes ts = true
  | [], _ => rfl
  | t :: ts, h => by
    rw [Tree.WFs, Bool.and_eq_true] at h
    rw [Tree.sanes, sane_of_WF t _ h.1, sanes_of_WF ts h.2]; rfl
end

/-- Tokens that are those of a well-grouped, supported, compound tree up to the spelling of keywords are
parsed to its node. -/
theorem parse_listen {df : Option JStr} {t : Tree} {ts : List Token} (hw : Tree.WF 0 t = true)
    (hs : Sup .empty t = true) (ht : t.isTypes = false) (he : ts.map canon = t.toks) :
    ∃ t', parseTokens ts = some t' ∧ listen df t' = .ok (nodeOf df t) := by
  have h1 := parse_toks hw
  rw [← he, parseTokens_map canon_kind canon_eof] at h1
  cases h2 : parseTokens ts with
  | none => rw [h2] at h1; cases h1
  | some t' =>
    rw [h2] at h1
    injection h1 with h1
    refine ⟨t', rfl, ?_⟩
    have h3 : t'.sane = true := by
      rw [← sane_mapTok canon_kind, h1]; exact sane_of_WF t 0 hw
    rw [← h1, sup_canon t' .empty h3] at hs
    rw [← h1, isTypes_mapTok] at ht
    rw [listen_sup hs ht, ← h1, nodeOf_canon df t' h3]

end BoolParser
