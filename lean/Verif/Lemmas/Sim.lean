import Verif.Lemmas.FuelEnough
import Verif.Lemmas.Listening
import Verif.Model.Api
/-!
# The parser treats related token sequences alike

`R` relates tokens of the same kind. Related token sequences have related parse trees: used for renaming fields,
for spelling keywords differently, and (with `R` a subrelation of equality) for saying where the parts of a tree
come from.
-/

namespace BoolParser

/-- Both absent, or both present and related. -/
inductive ORel {α β : Type} (Q : α → β → Prop) : Option α → Option β → Prop
  | none : ORel Q none none
  | some {a : α} {b : β} : Q a b → ORel Q (some a) (some b)

/-- The same failure, or related results. -/
inductive RRel {α β : Type} (Q : α → β → Prop) : Result α → Result β → Prop
  | error (e : Exn) : RRel Q (.error e) (.error e)
  | ok {a : α} {b : β} : Q a b → RRel Q (.ok a) (.ok b)

theorem RRel.bind {α β γ δ : Type} {Q : α → β → Prop} {S : γ → δ → Prop} {x : Result α} {y : Result β}
    {f : α → Result γ} {g : β → Result δ} (h : RRel Q x y) (hf : ∀ a b, Q a b → RRel S (f a) (g b)) :
    RRel S (x >>= f) (y >>= g) := by
  cases h with
  | error e => exact .error e
  | ok h => exact hf _ _ h

theorem RRel.mono {α β : Type} {Q S : α → β → Prop} {x : Result α} {y : Result β} (h : RRel Q x y)
    (hf : ∀ a b, Q a b → S a b) : RRel S x y := by
  cases h with
  | error e => exact .error e
  | ok h => exact .ok (hf _ _ h)

mutual
inductive TreeRel (R : Token → Token → Prop) : Tree → Tree → Prop
  | paren {t t' : Tree} : TreeRel R t t' → TreeRel R (.paren t) (.paren t')
  | not_ {t t' : Tree} : TreeRel R t t' → TreeRel R (.not_ t) (.not_ t')
  | neg {t t' : Tree} : TreeRel R t t' → TreeRel R (.neg t) (.neg t')
  | cmp {op : CmpOp} {l r l' r' : Tree} : TreeRel R l l' → TreeRel R r r' → TreeRel R (.cmp op l r) (.cmp op l' r')
  | arith {u u' : Token} {op : ArithOp} {l r l' r' : Tree} : R u u' → u.kind = .arith op → TreeRel R l l' →
      TreeRel R r r' → TreeRel R (.arith op l r) (.arith op l' r')
  | bin {c : Bool} {l r l' r' : Tree} : TreeRel R l l' → TreeRel R r r' → TreeRel R (.bin c l r) (.bin c l' r')
  | func {u u' : Token} {f : FuncType} {es es' : List Tree} : R u u' → u.kind = .fn f → TreesRel R es es' →
      TreeRel R (.func f es) (.func f es')
  | types {t t' : Token} (e : Bool) : R t t' → (e = false → t.kind = .field ∨ isLitKind t.kind = true) →
      (e = true → isEmptyFollow t.kind = true) →
      TreeRel R (.types t e) (.types t' e)
  | to_ {f lo hi f' lo' hi' : Token} : R f f' → R lo lo' → R hi hi' → f.kind = .field → isNumKind lo.kind = true →
      isNumKind hi.kind = true → TreeRel R (.to_ f lo hi) (.to_ f' lo' hi')
  | in_ {f f' : Token} (n : Bool) {es es' : List Tree} : R f f' → f.kind = .field → TreesRel R es es' →
      TreeRel R (.in_ f n es) (.in_ f' n es')
  | array {f f' : Token} (o : ArrOp) {es es' : List Tree} : R f f' → f.kind = .field → TreesRel R es es' →
      TreeRel R (.array f o es) (.array f' o es')
inductive TreesRel (R : Token → Token → Prop) : List Tree → List Tree → Prop
  | nil : TreesRel R [] []
  | cons {t t' : Tree} {ts ts' : List Tree} : TreeRel R t t' → TreesRel R ts ts' → TreesRel R (t :: ts) (t' :: ts')
end

/-- The first token of an operand, or the token after a missing operand. -/
def OpensTypes (k : TK) : Prop := k = .field ∨ isLitKind k = true ∨ isEmptyFollow k = true

/-- Related tree, related rest. -/
def PRel (R : Token → Token → Prop) (x x' : Tree × List Token) : Prop :=
  TreeRel R x.1 x'.1 ∧ List.Forall₂ R x.2 x'.2

def PsRel (R : Token → Token → Prop) (x x' : List Tree × List Token) : Prop :=
  TreesRel R x.1 x'.1 ∧ List.Forall₂ R x.2 x'.2

theorem mk_rel {R : Token → Token → Prop} {u u' : Token} {b : BinTok} (hu : R u u') (hb : binTok u.kind = some b)
    {l l' r r' : Tree} (hl : TreeRel R l l') (hr : TreeRel R r r') : TreeRel R (b.mk l r) (b.mk l' r') := by
  cases b with
  | cmp op => exact .cmp hl hr
  | conn c => exact .bin hl hr
  | arith op =>
    refine .arith hu ?_ hl hr
    cases hk : u.kind with
    | arith op' => rw [hk] at hb; simp only [binTok, Option.some.injEq, BinTok.arith.injEq] at hb; rw [hb]
    | _ => rw [hk] at hb; simp [binTok] at hb

theorem fieldTail_rel {R : Token → Token → Prop} (hR : ∀ t t', R t t' → t.kind = t'.kind) {f : Nat} {t t' : Token}
    {ts ts' : List Token} (ht : R t t') (hf : t.kind = .field)
    (ha : ORel (PRel R) (pAfterField f t ts) (pAfterField f t' ts')) (h : List.Forall₂ R ts ts') :
    ORel (PRel R) (fieldTail f t ts) (fieldTail f t' ts') := by
  cases h with
  | nil => exact .some ⟨.types _ ht (fun _ => .inl hf) (fun h => nomatch h), .nil⟩
  | @cons lo lo' us us' h1 h2 =>
    have k1 := hR _ _ h1
    cases h2 with
    | nil =>
      simp only [fieldTail, ← k1]
      cases isNumKind lo.kind
      · exact ha
      · exact .none
    | @cons to_ to_' vs vs' h2 h3 =>
      have k2 := hR _ _ h2
      cases h3 with
      | nil =>
        simp only [fieldTail, ← k1]
        cases isNumKind lo.kind
        · exact ha
        · exact .none
      | @cons hi hi' ws ws' h3 h4 =>
        have k3 := hR _ _ h3
        simp only [fieldTail, ← k1, ← k2, ← k3]
        cases hn : isNumKind lo.kind
        · exact ha
        · simp only [if_true]
          by_cases hc : to_.kind = .kTo ∧ isNumKind hi.kind = true
          · rw [if_pos hc, if_pos hc]; exact .some ⟨.to_ ht h1 h3 hf hn hc.2, h4⟩
          · rw [if_neg hc, if_neg hc]; exact .none

theorem parse_rel {R : Token → Token → Prop} (hR : ∀ t t', R t t' → t.kind = t'.kind) (he : R eofTok eofTok) (f : Nat) :
    (∀ p ts ts', List.Forall₂ R ts ts' → ORel (PRel R) (pExpr f p ts) (pExpr f p ts')) ∧
    (∀ ts ts', List.Forall₂ R ts ts' → ORel (PRel R) (pPrimary f ts) (pPrimary f ts')) ∧
    (∀ t t' ts ts', R t t' → t.kind = .field → List.Forall₂ R ts ts' →
      ORel (PRel R) (pAfterField f t ts) (pAfterField f t' ts')) ∧
    (∀ p l l' ts ts', TreeRel R l l' → List.Forall₂ R ts ts' → ORel (PRel R) (pLoop f p l ts) (pLoop f p l' ts')) ∧
    (∀ ts ts', List.Forall₂ R ts ts' → ORel (PsRel R) (pWordlist f ts) (pWordlist f ts')) ∧
    (∀ ts ts', List.Forall₂ R ts ts' → ORel (PsRel R) (pMore f ts) (pMore f ts')) := by
  induction f with
  | zero => refine ⟨?_, ?_, ?_, ?_, ?_, ?_⟩ <;> intros <;> exact .none
  | succ f ih =>
    obtain ⟨hE, hP, hA, hL, hW, hM⟩ := ih
    have list : ∀ {ts ts' : List Token} {mk mk' : List Tree → Tree}, List.Forall₂ R ts ts' →
        (∀ es es', TreesRel R es es' → TreeRel R (mk es) (mk' es')) →
        ORel (PRel R) (match pWordlist f ts with | some (es, r) => some (mk es, r) | none => none)
          (match pWordlist f ts' with | some (es, r) => some (mk' es, r) | none => none) := by
      intro ts ts' mk mk' h hm
      have := hW _ _ h
      revert this
      generalize pWordlist f ts = x
      generalize pWordlist f ts' = x'
      intro this
      cases this with
      | none => exact .none
      | some hq => exact .some ⟨hm _ _ hq.1, hq.2⟩
    have one : ∀ {p : Nat} {ts ts' : List Token} {mk mk' : Tree → Tree}, List.Forall₂ R ts ts' →
        (∀ e e', TreeRel R e e' → TreeRel R (mk e) (mk' e')) →
        ORel (PRel R) (match pExpr f p ts with | some (e, r) => some (mk e, r) | none => none)
          (match pExpr f p ts' with | some (e, r) => some (mk' e, r) | none => none) := by
      intro p ts ts' mk mk' h hm
      have := hE p _ _ h
      revert this
      generalize pExpr f p ts = x
      generalize pExpr f p ts' = x'
      intro this
      cases this with
      | none => exact .none
      | some hq => exact .some ⟨hm _ _ hq.1, hq.2⟩
    have items : ∀ {ts ts' : List Token}, List.Forall₂ R ts ts' → ORel (PsRel R)
        (match pExpr f 0 ts with
          | some (e, ts') => (match pMore f ts' with
            | some (es, ts'') => some (e :: es, ts'')
            | none => none)
          | none => none)
        (match pExpr f 0 ts' with
          | some (e, ts') => (match pMore f ts' with
            | some (es, ts'') => some (e :: es, ts'')
            | none => none)
          | none => none) := by
      intro ts ts' h
      have := hE 0 _ _ h
      revert this
      generalize pExpr f 0 ts = x
      generalize pExpr f 0 ts' = x'
      intro this
      cases this with
      | none => exact .none
      | @some a b hq =>
        have := hM _ _ hq.2
        simp only
        revert this
        generalize pMore f a.2 = y
        generalize pMore f b.2 = y'
        intro this
        cases this with
        | none => exact .none
        | some hq' => exact .some ⟨.cons hq.1 hq'.1, hq'.2⟩
    refine ⟨?_, ?_, ?_, ?_, ?_, ?_⟩
    · intro p ts ts' h
      rw [pExpr, pExpr]
      have := hP _ _ h
      revert this
      generalize pPrimary f ts = x
      generalize pPrimary f ts' = x'
      intro this
      cases this with
      | none => exact .none
      | some hq => exact hL _ _ _ _ _ hq.1 hq.2
    · intro ts ts' h
      cases h with
      | nil => rw [pPrimary]; exact .some ⟨.types _ he (fun h => nomatch h) (fun _ => rfl), .nil⟩
      | @cons t t' us us' h1 h2 =>
        have k1 := hR _ _ h1
        by_cases hf : t.kind = .field
        · rw [pPrimary_field _ _ _ hf, pPrimary_field _ _ _ (k1 ▸ hf)]
          exact fieldTail_rel hR h1 hf (hA _ _ _ _ h1 hf h2) h2
        rw [pPrimary_cons, pPrimary_cons, ← k1]
        cases hk : t.kind with
        | field => exact absurd hk hf
        | lparen =>
          simp only
          have := hE 0 _ _ h2
          revert this
          generalize pExpr f 0 us = x
          generalize pExpr f 0 us' = x'
          intro this
          cases this with
          | none => exact .none
          | @some a b hq =>
            obtain ⟨a1, a2⟩ := a
            obtain ⟨b1, b2⟩ := b
            obtain ⟨q1, q2⟩ := hq
            simp only at q1 q2
            cases q2 with
            | nil => exact .none
            | @cons r r' _ _ hr q3 =>
              simp only [← hR _ _ hr]
              by_cases hc : r.kind = .rparen
              · rw [if_pos hc, if_pos hc]; exact .some ⟨.paren q1, q3⟩
              · rw [if_neg hc, if_neg hc]; exact .none
        | kNot => exact one h2 (fun _ _ h => .not_ h)
        | arith op =>
          cases op with
          | sub => exact one h2 (fun _ _ h => .neg h)
          | _ => exact .some ⟨.types _ h1 (fun h => nomatch h) (fun _ => by rw [hk]; rfl), .cons h1 h2⟩
        | fn g => exact list h2 (fun _ _ h => .func h1 hk h)
        | _ =>
          first
          | exact .some ⟨.types _ h1 (fun _ => .inr (by rw [hk]; rfl)) (fun h => nomatch h), h2⟩
          | exact .some ⟨.types _ h1 (fun h => nomatch h) (fun _ => by rw [hk]; rfl), .cons h1 h2⟩
          | exact .none
    · intro t t' ts ts' ht hf h
      cases h with
      | nil => rw [pAfterField]; exact .some ⟨.types _ ht (fun _ => .inl hf) (fun h => nomatch h), .nil⟩
      | @cons v v' vs vs' h1 h2 =>
        rw [pAfterField_cons, pAfterField_cons, ← hR _ _ h1]
        cases hk : v.kind with
        | kIn => exact list h2 (fun _ _ h => .in_ _ ht hf h)
        | cAll => exact list h2 (fun _ _ h => .array _ ht hf h)
        | cAny => exact list h2 (fun _ _ h => .array _ ht hf h)
        | kNot =>
          simp only
          cases h2 with
          | nil => exact .none
          | @cons w w' ws ws' h3 h4 =>
            simp only [← hR _ _ h3]
            by_cases hc : w.kind = .kIn
            · simp only [if_pos hc]; exact list h4 (fun _ _ h => .in_ _ ht hf h)
            · simp only [if_neg hc]; exact .none
        | _ => exact .some ⟨.types _ ht (fun _ => .inl hf) (fun h => nomatch h), .cons h1 h2⟩
    · intro p l l' ts ts' hl h
      cases h with
      | nil => rw [pLoop]; exact .some ⟨hl, .nil⟩
      | @cons t t' us us' h1 h2 =>
        rw [pLoop, pLoop, ← hR _ _ h1]
        cases hb : binTok t.kind with
        | none => exact .some ⟨hl, .cons h1 h2⟩
        | some b =>
          simp only
          by_cases hp : p ≤ b.prec
          · simp only [if_pos hp]
            have := hE (b.prec + 1) _ _ h2
            revert this
            generalize pExpr f (b.prec + 1) us = x
            generalize pExpr f (b.prec + 1) us' = x'
            intro this
            cases this with
            | none => exact .none
            | some hq => exact hL _ _ _ _ _ (mk_rel h1 hb hl hq.1) hq.2
          · simp only [if_neg hp]; exact .some ⟨hl, .cons h1 h2⟩
    · intro ts ts' h
      cases h with
      | nil => exact .none
      | @cons t t' us us' h1 h2 =>
        rw [pWordlist, pWordlist, ← hR _ _ h1]
        by_cases hc : t.kind = .lparen
        · simp only [if_pos hc]; exact items h2
        · simp only [if_neg hc]; exact .none
    · intro ts ts' h
      cases h with
      | nil => exact .none
      | @cons t t' us us' h1 h2 =>
        rw [pMore, pMore, ← hR _ _ h1]
        by_cases hc : t.kind = .rparen
        · simp only [if_pos hc]; exact .some ⟨.nil, h2⟩
        · simp only [if_neg hc]
          by_cases hc2 : t.kind = .comma
          · simp only [if_pos hc2]; exact items h2
          · simp only [if_neg hc2]; exact .none

theorem forall2_length {α β : Type} {R : α → β → Prop} {xs : List α} {ys : List β} (h : List.Forall₂ R xs ys) :
    xs.length = ys.length := by
  induction h with
  | nil => rfl
  | cons _ _ ih => simp [ih]

/-- Related token sequences parse to related trees, or both do not parse. -/
theorem parseTokens_rel {R : Token → Token → Prop} (hR : ∀ t t', R t t' → t.kind = t'.kind) (he : R eofTok eofTok)
    {ts ts' : List Token} (h : List.Forall₂ R ts ts') : ORel (TreeRel R) (parseTokens ts) (parseTokens ts') := by
  unfold parseTokens
  have hl : parseFuel ts = parseFuel ts' := by unfold parseFuel; rw [forall2_length h]
  rw [← hl]
  have := (parse_rel hR he (parseFuel ts)).1 0 _ _ h
  revert this
  generalize pExpr (parseFuel ts) 0 ts = x
  generalize pExpr (parseFuel ts) 0 ts' = x'
  intro this
  cases this with
  | none => exact .none
  | @some a b hq =>
    obtain ⟨a1, a2⟩ := a
    obtain ⟨b1, b2⟩ := b
    obtain ⟨q1, q2⟩ := hq
    simp only at q1 q2
    cases q2 with
    | nil => exact .some q1
    | cons _ _ => exact .none

/-! ### The listener -/

/-- What a simulation needs to know: related field names, related literal values of a type, related bounds of a
range, related values of an operand that NOT is applied to, related texts that are the whole expression, and which functions and operators occur. -/
structure Vocab where
  field : JStr → JStr → Prop
  lit : DataType → Value → Value → Prop
  bound : Value → Value → Prop
  word : DataType → Value → Value → Prop
  lone : Value → Value → Prop
  fn : FuncType → Prop
  op : ArithOp → Prop

mutual
inductive NodeRel (V : Vocab) : Node → Node → Prop
  | cmp (op : CmpOp) (dt : DataType) {l r l' r' : Node} : NodeRel V l l' → NodeRel V r r' →
      NodeRel V (.cmp l r op dt) (.cmp l' r' op dt)
  | range {f f' : JStr} {lo hi lo' hi' : Value} {s t : DataType} : V.field f f' → V.bound lo lo' → V.bound hi hi' →
      NodeRel V (.range f lo hi s t) (.range f' lo' hi' s t)
  | inn {f f' : JStr} {ns ns' : List Node} : V.field f f' → NodesRel V ns ns' → NodeRel V (.inn f ns) (.inn f' ns')
  | array {f f' : JStr} (o : ArrOp) {ns ns' : List Node} : V.field f f' → NodesRel V ns ns' →
      NodeRel V (.array f o ns) (.array f' o ns')
  | unary {dt : DataType} {v v' : Value} : V.lit dt v v' → NodeRel V (.unary dt v) (.unary dt v')
  | and_ {l r l' r' : Node} : NodeRel V l l' → NodeRel V r r' → NodeRel V (.and_ l r) (.and_ l' r')
  | or_ {l r l' r' : Node} : NodeRel V l l' → NodeRel V r r' → NodeRel V (.or_ l r) (.or_ l' r')
  | not_ {l l' : Node} : NodeRel V l l' → NodeRel V (.not_ l) (.not_ l')
  | word {dt : DataType} {v v' : Value} : V.word dt v v' → NodeRel V (.not_ (.unary dt v)) (.not_ (.unary dt v'))
  | nofield : NodeRel V (.field none) (.field none)
  | field {f f' : JStr} : V.field f f' → NodeRel V (.field (some f)) (.field (some f'))
  | arith {op : ArithOp} {l r l' r' : Node} : V.op op → NodeRel V l l' → NodeRel V r r' →
      NodeRel V (.arith op l r) (.arith op l' r')
  | neg {l l' : Node} : NodeRel V l l' → NodeRel V (.neg l) (.neg l')
  | func {f : FuncType} {ns ns' : List Node} : V.fn f → NodesRel V ns ns' → NodeRel V (.func f ns) (.func f ns')
inductive NodesRel (V : Vocab) : List Node → List Node → Prop
  | nil : NodesRel V [] []
  | cons {n n' : Node} {ns ns' : List Node} : NodeRel V n n' → NodesRel V ns ns' → NodesRel V (n :: ns) (n' :: ns')
end

/-- Related tokens give related names, values, functions and operators. -/
structure Sim (R : Token → Token → Prop) (V : Vocab) (df df' : Option JStr) : Prop where
  kind : ∀ {t t'}, R t t' → t.kind = t'.kind
  type : ∀ {t t'}, R t t' → tokType t = tokType t'
  field : ∀ {t t'}, R t t' → t.kind = .field → V.field t.text t'.text
  lit : ∀ {t t'}, R t t' → isLitKind t.kind = true →
    RRel (V.lit (tokType t)) (convertValue t.text (tokType t)) (convertValue t'.text (tokType t))
  bound : ∀ {dt v v'}, V.lit dt v v' → V.bound v v'
  lone : ∀ {t t'}, R t t' → OpensTypes t.kind → t.kind ≠ .field →
    RRel V.lone (convertValue t.text .string) (convertValue t'.text .string)
  word : ∀ {t t'}, R t t' → OpensTypes t.kind →
    RRel (V.word (tokType t)) (convertValue t.text (tokType t)) (convertValue t'.text (tokType t))
  fn : ∀ {t t' f}, R t t' → t.kind = .fn f → V.fn f
  op : ∀ {t t' o}, R t t' → t.kind = .arith o → V.op o
  dflt : ORel V.field df df'

variable {R : Token → Token → Prop} {V : Vocab} {df df' : Option JStr}

theorem tree_isTypes {t t' : Tree} (h : TreeRel R t t') : t.isTypes = t'.isTypes := by cases h <;> rfl
theorem tree_isParen {t t' : Tree} (h : TreeRel R t t') : t.isParen = t'.isParen := by cases h <;> rfl

theorem tree_startType (S : Sim R V df df') : {t t' : Tree} → TreeRel R t t' → t.startType = t'.startType
  | _, _, .types _ h _ _ => by rw [Tree.startType, Tree.startType]; exact S.type h
  | _, _, .cmp hl _ => by rw [Tree.startType, Tree.startType]; exact tree_startType S hl
  | _, _, .arith _ _ hl _ => by rw [Tree.startType, Tree.startType]; exact tree_startType S hl
  | _, _, .bin hl _ => by rw [Tree.startType, Tree.startType]; exact tree_startType S hl
  | _, _, .paren _ => rfl
  | _, _, .not_ _ => rfl
  | _, _, .neg _ => rfl
  | _, _, .func _ _ _ => rfl
  | _, _, .to_ _ _ _ _ _ _ => rfl
  | _, _, .in_ _ _ _ _ => rfl
  | _, _, .array _ _ _ _ => rfl

theorem node_isCmpOrBool {n n' : Node} (h : NodeRel V n n') : n.isCmpOrBool = n'.isCmpOrBool := by cases h <;> rfl
theorem node_isArithNode {n n' : Node} (h : NodeRel V n n') : n.isArithNode = n'.isArithNode := by cases h <;> rfl
theorem node_isArithBase {n n' : Node} (h : NodeRel V n n') : n.isArithBase = n'.isArithBase := by cases h <;> rfl

theorem useStack_rel {st st' : NStack} (h : NodesRel V st st') {l l' r r' : Tree} (hl : TreeRel R l l')
    (hr : TreeRel R r r') : useStack st l r = useStack st' l' r' := by
  cases h with
  | nil => rfl
  | cons h _ => simp only [useStack]; rw [tree_isParen hl, tree_isParen hr, node_isCmpOrBool h]

theorem dflt_rel (S : Sim R V df df') : NodeRel V (.field df) (.field df') := by
  cases S.dflt with
  | none => exact .nofield
  | some h => exact .field h

theorem mapTypes_rel (S : Sim R V df df') {t t' : Token} (h : R t t') (e : Bool)
    (he : e = false → t.kind = .field ∨ isLitKind t.kind = true) :
    RRel (NodeRel V) (mapTypes df t e) (mapTypes df' t' e) := by
  unfold mapTypes
  rw [← S.kind h, ← S.type h]
  by_cases hf : t.kind = .field
  · rw [if_pos hf, if_pos hf]
    cases e with
    | true => exact .ok (dflt_rel S)
    | false => exact .ok (.field (S.field h hf))
  · rw [if_neg hf, if_neg hf]
    cases e with
    | true => exact .ok (dflt_rel S)
    | false => exact (S.lit h ((he rfl).resolve_left hf)).bind (fun _ _ h => .ok (.unary h))

/-- Related node, related stack. -/
def SRel (V : Vocab) (x x' : Node × NStack) : Prop := NodeRel V x.1 x'.1 ∧ NodesRel V x.2 x'.2

theorem popN_rel {st st' : NStack} (h : NodesRel V st st') : RRel (SRel V) (popN st) (popN st') := by
  cases h with
  | nil => exact .error _
  | cons h1 h2 => exact .ok ⟨h1, h2⟩

theorem num_lit {k : TK} (h : isNumKind k = true) : isLitKind k = true := by cases k <;> first | rfl | cases h

mutual
theorem mapNode_rel (S : Sim R V df df') : {t t' : Tree} → TreeRel R t t' → {st st' : NStack} → NodesRel V st st' →
    RRel (SRel V) (mapNode df t st) (mapNode df' t' st')
  | _, _, .types e h he _, st, st', hs => by
    rw [mapNode, mapNode]
    exact (mapTypes_rel S h e he).bind (fun _ _ h => .ok ⟨h, hs⟩)
  | _, _, .func h hk hes, st, st', hs => by
    rw [mapNode, mapNode]
    exact (mapNodes_rel S hes hs).bind (fun _ _ h' => .ok ⟨.func (S.fn h hk) h'.1, h'.2⟩)
  | _, _, .in_ n h hk hes, st, st', hs => by
    rw [mapNode, mapNode]
    refine (mapNodes_rel S hes hs).bind (fun _ _ h' => .ok ⟨?_, h'.2⟩)
    cases n with
    | true => exact .not_ (.inn (S.field h hk) h'.1)
    | false => exact .inn (S.field h hk) h'.1
  | _, _, .to_ h1 h2 h3 k1 k2 k3, st, st', hs => by
    rw [mapNode, mapNode]
    rw [← S.type h2, ← S.type h3]
    refine (S.lit h2 (num_lit k2)).bind (fun _ _ q => (S.lit h3 (num_lit k3)).bind (fun _ _ q' => .ok ⟨?_, hs⟩))
    exact .range (S.field h1 k1) (S.bound q) (S.bound q')
  | .cmp op l r, .cmp _ l' r', .cmp hl hr, st, st', hs => by
    rw [mapNode, mapNode, ← useStack_rel hs hl hr, ← tree_isTypes hl, ← tree_isTypes hr]
    rw [← tree_startType S hl, ← tree_startType S hr]
    by_cases c1 : (useStack st l r && l.isTypes) = true
    · rw [if_pos c1, if_pos c1]
      exact (mapNode_rel S hl hs).bind (fun _ _ h => (popN_rel h.2).bind (fun _ _ h' => .ok ⟨.cmp _ _ h.1 h'.1, h'.2⟩))
    · rw [if_neg c1, if_neg c1]
      by_cases c2 : (useStack st l r && r.isTypes) = true
      · rw [if_pos c2, if_pos c2]
        exact (mapNode_rel S hr hs).bind (fun _ _ h => (popN_rel h.2).bind (fun _ _ h' => .ok ⟨.cmp _ _ h'.1 h.1, h'.2⟩))
      · rw [if_neg c2, if_neg c2]
        exact (mapNode_rel S hr hs).bind (fun _ _ h => (mapNode_rel S hl h.2).bind
          (fun _ _ h' => .ok ⟨.cmp _ _ h'.1 h.1, h'.2⟩))
  | .arith op l r, .arith _ l' r', .arith h hk hl hr, st, st', hs => by
    rw [mapNode_arith, mapNode_arith, ← tree_isTypes hl, ← tree_isTypes hr]
    have ho := S.op h hk
    by_cases c1 : (l.isTypes && r.isTypes) = true
    · rw [if_pos c1, if_pos c1]
      exact (mapNode_rel S hl hs).bind (fun _ _ h => (mapNode_rel S hr h.2).bind
          (fun _ _ h' => .ok ⟨.arith ho h.1 h'.1, h'.2⟩))
    · rw [if_neg c1, if_neg c1]
      by_cases c2 : l.isTypes = true
      · rw [if_pos c2, if_pos c2]
        exact (mapNode_rel S hl hs).bind (fun _ _ h => (popN_rel h.2).bind (fun _ _ h' => .ok ⟨.arith ho h.1 h'.1, h'.2⟩))
      · rw [if_neg c2, if_neg c2]
        by_cases c3 : r.isTypes = true
        · rw [if_pos c3, if_pos c3]
          exact (mapNode_rel S hr hs).bind (fun _ _ h => (popN_rel h.2).bind (fun _ _ h' => .ok ⟨.arith ho h'.1 h.1, h'.2⟩))
        · rw [if_neg c3, if_neg c3]
          cases hs with
          | nil => exact .error _
          | cons q1 q2 =>
            cases q2 with
            | nil => exact .error _
            | cons q2 q3 => exact .ok ⟨.arith ho q2 q1, q3⟩
  | _, _, .paren _, _, _, _ => by simp only [mapNode]; exact .error _
  | _, _, .not_ _, _, _, _ => by simp only [mapNode]; exact .error _
  | _, _, .neg _, _, _, _ => by simp only [mapNode]; exact .error _
  | _, _, .bin _ _, _, _, _ => by simp only [mapNode]; exact .error _
  | _, _, .array _ _ _ _, _, _, _ => by simp only [mapNode]; exact .error _
theorem mapNodes_rel (S : Sim R V df df') : {ts ts' : List Tree} → TreesRel R ts ts' → {st st' : NStack} →
    NodesRel V st st' →
    RRel (fun x x' => NodesRel V x.1 x'.1 ∧ NodesRel V x.2 x'.2) (mapNodes df ts st) (mapNodes df' ts' st')
  | _, _, .nil, st, st', hs => by rw [mapNodes, mapNodes]; exact .ok ⟨.nil, hs⟩
  | _, _, .cons h1 h2, st, st', hs => by
    rw [mapNodes, mapNodes]
    exact (mapNode_rel S h1 hs).bind (fun _ _ h => (mapNodes_rel S h2 h.2).bind
      (fun _ _ h' => .ok ⟨.cons h.1 h'.1, h'.2⟩))
end

/-- Related listener states. -/
structure LRel (R : Token → Token → Prop) (V : Vocab) (s s' : LState) : Prop where
  stack : NodesRel V s.stack s'.stack
  last : ORel (fun t t' => R t t' ∧ OpensTypes t.kind) s.last s'.last
  count : s.count = s'.count

theorem exitMapped_rel (S : Sim R V df df') {t t' : Tree} (h : TreeRel R t t') {s s' : LState} (hs : LRel R V s s') :
    RRel (LRel R V) (exitMapped df t s) (exitMapped df' t' s') :=
  (mapNode_rel S h hs.stack).bind (fun _ _ h => .ok ⟨.cons h.1 h.2, hs.last, hs.count⟩)

theorem exitNeg_rel (S : Sim R V df df') {t t' : Tree} (h : TreeRel R t t') {s s' : LState} (hs : LRel R V s s') :
    RRel (LRel R V) (exitNeg df t s) (exitNeg df' t' s') := by
  unfold exitNeg
  obtain ⟨st, la, c⟩ := s
  obtain ⟨st', la', c'⟩ := s'
  obtain ⟨h1, h2, h3⟩ := hs
  simp only at h1 h2 h3 ⊢
  cases h1 with
  | nil =>
    cases h <;> first
      | exact .error _
      | exact (mapTypes_rel S (by assumption) _ (by assumption)).bind (fun _ _ h => .ok ⟨.cons (.neg h) .nil, h2, h3⟩)
  | @cons n n' st st' h1 h4 =>
    simp only [← node_isArithNode h1]
    cases n.isArithNode
    · cases h <;> first
        | exact .error _
        | exact (mapTypes_rel S (by assumption) _ (by assumption)).bind (fun _ _ h => .ok ⟨.cons (.neg h) (.cons h1 h4), h2, h3⟩)
    · exact .ok ⟨.cons (.neg h1) h4, h2, h3⟩

theorem exitArray_rel (S : Sim R V df df') {f f' : Token} (hf : R f f') (hk : f.kind = .field) (o : ArrOp)
    {ts ts' : List Tree} (h : TreesRel R ts ts') {s s' : LState} (hs : LRel R V s s') :
    RRel (LRel R V) (exitArray df f o ts s) (exitArray df' f' o ts' s') :=
  (mapNodes_rel S h hs.stack).bind (fun _ _ h => .ok ⟨.cons (.array o (S.field hf hk) h.1) h.2, hs.last, hs.count⟩)

theorem exitNot_rel (S : Sim R V df df') {s s' : LState} (hs : LRel R V s s') :
    RRel (LRel R V) (exitNot s) (exitNot s') := by
  unfold exitNot
  obtain ⟨st, la, c⟩ := s
  obtain ⟨st', la', c'⟩ := s'
  obtain ⟨h1, h2, h3⟩ := hs
  simp only at h1 h2 h3 ⊢
  cases h1 with
  | cons h1 h1' => exact .ok ⟨.cons (.not_ h1) h1', h2, h3⟩
  | nil =>
    cases h2 with
    | none => exact .error _
    | @some t t' h =>
      simp only
      rw [← S.type h.1]
      exact (S.word h.1 h.2).bind (fun _ _ q => .ok ⟨.cons (.word q) .nil, .some h, h3⟩)

theorem exitBin_rel (c : Bool) {s s' : LState} (hs : LRel R V s s') : RRel (LRel R V) (exitBin c s) (exitBin c s') := by
  unfold exitBin
  obtain ⟨st, la, n⟩ := s
  obtain ⟨st', la', n'⟩ := s'
  obtain ⟨h1, h2, h3⟩ := hs
  simp only at h1 h2 h3 ⊢
  cases h1 with
  | nil => exact .error _
  | cons h1 h1' =>
    cases h1' with
    | nil => exact .error _
    | cons h4 h5 =>
      cases c with
      | true => exact .ok ⟨.cons (.and_ h4 h1) h5, h2, h3⟩
      | false => exact .ok ⟨.cons (.or_ h4 h1) h5, h2, h3⟩

mutual
theorem walk_rel (S : Sim R V df df') : {t t' : Tree} → TreeRel R t t' → {s s' : LState} → LRel R V s s' →
    RRel (LRel R V) (walk df t s) (walk df' t' s')
  | _, _, .paren h, _, _, hs => by rw [walk, walk]; exact walk_rel S h hs
  | _, _, .not_ h, _, _, hs => by
    rw [walk, walk]; exact (walk_rel S h hs).bind (fun _ _ h => exitNot_rel S h)
  | _, _, .neg h, _, _, hs => by
    rw [walk, walk]; exact (walk_rel S h hs).bind (fun _ _ h' => exitNeg_rel S h h')
  | _, _, .cmp hl hr, _, _, hs => by
    rw [walk, walk]
    exact (walk_rel S hl hs).bind (fun _ _ h => (walk_rel S hr h).bind (fun _ _ h => exitMapped_rel S (.cmp hl hr) h))
  | _, _, .arith h1 h2 hl hr, _, _, hs => by
    rw [walk, walk]
    exact (walk_rel S hl hs).bind (fun _ _ h => (walk_rel S hr h).bind
      (fun _ _ h => exitMapped_rel S (.arith h1 h2 hl hr) h))
  | _, _, .bin hl hr, _, _, hs => by
    rw [walk, walk]
    exact (walk_rel S hl hs).bind (fun _ _ h => (walk_rel S hr h).bind (fun _ _ h => exitBin_rel _ h))
  | _, _, .func h1 h2 he, _, _, hs => by
    rw [walk, walk]; exact (walkAll_rel S he hs).bind (fun _ _ h => exitMapped_rel S (.func h1 h2 he) h)
  | _, _, .types e h h1 h2, _, _, hs => by
    rw [walk, walk]
    refine .ok ⟨hs.stack, .some ⟨h, ?_⟩, by simp [hs.count]⟩
    cases e with
    | true => exact .inr (.inr (h2 rfl))
    | false => exact (h1 rfl).imp id .inl
  | _, _, .to_ h1 h2 h3 k1 k2 k3, _, _, hs => by
    rw [walk, walk]; exact exitMapped_rel S (.to_ h1 h2 h3 k1 k2 k3) hs
  | _, _, .in_ n h1 h2 he, _, _, hs => by
    rw [walk, walk]; exact (walkAll_rel S he hs).bind (fun _ _ h => exitMapped_rel S (.in_ n h1 h2 he) h)
  | _, _, .array o h1 h2 he, _, _, hs => by
    rw [walk, walk]; exact (walkAll_rel S he hs).bind (fun _ _ h => exitArray_rel S h1 h2 o he h)
theorem walkAll_rel (S : Sim R V df df') : {ts ts' : List Tree} → TreesRel R ts ts' → {s s' : LState} →
    LRel R V s s' → RRel (LRel R V) (walkAll df ts s) (walkAll df' ts' s')
  | _, _, .nil, _, _, hs => by rw [walkAll, walkAll]; exact .ok hs
  | _, _, .cons h1 h2, _, _, hs => by
    rw [walkAll, walkAll]; exact (walk_rel S h1 hs).bind (fun _ _ h => walkAll_rel S h2 h)
end

/-- Related nodes of a whole expression. -/
def TopRel (V : Vocab) (n n' : Node) : Prop :=
  NodeRel V n n' ∨ ∃ v v', n = .unary .string v ∧ n' = .unary .string v' ∧ V.lone v v'

theorem exitParse_rel (S : Sim R V df df') {s s' : LState} (hs : LRel R V s s') :
    RRel (TopRel V) (exitParse s) (exitParse s') := by
  unfold exitParse
  obtain ⟨st, la, n⟩ := s
  obtain ⟨st', la', n'⟩ := s'
  obtain ⟨h1, h2, h3⟩ := hs
  simp only at h1 h2 h3 ⊢
  subst h3
  cases h1 with
  | cons h _ => exact .ok (.inl h)
  | nil =>
    cases h2 with
    | none => exact .error _
    | @some t t' h =>
      simp only
      by_cases hn : n = 1
      · rw [if_pos hn, if_pos hn, ← S.kind h.1]
        by_cases hf : t.kind = .field
        · rw [if_pos hf, if_pos hf]; exact .ok (.inl (.field (S.field h.1 hf)))
        · rw [if_neg hf, if_neg hf]; exact (S.lone h.1 h.2 hf).bind (fun _ _ h => .ok (.inr ⟨_, _, rfl, rfl, h⟩))
      · rw [if_neg hn, if_neg hn]; exact .error _

theorem listen_rel (S : Sim R V df df') {t t' : Tree} (h : TreeRel R t t') :
    RRel (TopRel V) (listen df t) (listen df' t') :=
  (walk_rel S h ⟨.nil, .none, rfl⟩).bind (fun _ _ h => exitParse_rel S h)

/-- Related outcomes. -/
inductive OutRel {α β : Type} (Q : α → β → Prop) : Outcome α → Outcome β → Prop
  | success {a : α} {b : β} : Q a b → OutRel Q (.success a) (.success b)
  | failure (e : Exn) : OutRel Q (.failure e) (.failure e)
  | syntaxError : OutRel Q .syntaxError .syntaxError

/-- Texts with related tokens have related nodes. -/
theorem parseExpression_rel (S : Sim R V df df') (he : R eofTok eofTok) {s s' : JStr}
    (h : List.Forall₂ R (lex s) (lex s')) :
    OutRel (TopRel V) (parseExpression s df) (parseExpression s' df') := by
  unfold parseExpression
  have := parseTokens_rel (fun _ _ h => S.kind h) he h
  revert this
  generalize parseTokens (lex s) = x
  generalize parseTokens (lex s') = x'
  intro this
  cases this with
  | none => exact .syntaxError
  | some ht =>
    show OutRel _ (Outcome.ofResult (listen df _)) (Outcome.ofResult (listen df' _))
    have := listen_rel S ht
    revert this
    generalize listen df _ = y
    generalize listen df' _ = y'
    intro this
    cases this with
    | error e => exact .failure e
    | ok h => exact .success h

end BoolParser
