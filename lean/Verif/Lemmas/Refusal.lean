import Verif.Spec.Refusal
import Verif.Lemmas.RefusalSame
import Verif.Lemmas.RefusalTree
import Verif.Lemmas.CauseTexts
/-!
# The pieces of a text that the parser's messages quote (for C102)
-/

namespace BoolParser
open Spec

mutual
theorem width_kinds : ∀ {t : Tree}, t.Gram → t.width = t.kinds.length
  | .paren t, h => by simp [Tree.width, Tree.kinds, width_kinds (t := t) h]
  | .not_ t, h => by simp [Tree.width, Tree.kinds, width_kinds (t := t) h]
  | .cmp _ l r, h => by simp [Tree.width, Tree.kinds, width_kinds h.1, width_kinds h.2]; omega
  | .neg t, h => by simp [Tree.width, Tree.kinds, width_kinds (t := t) h]
  | .arith _ l r, h => by simp [Tree.width, Tree.kinds, width_kinds h.1, width_kinds h.2]; omega
  | .func _ items, h => by simp [Tree.width, Tree.kinds, widths_list h.1 h.2]; omega
  | .bin _ l r, h => by simp [Tree.width, Tree.kinds, width_kinds h.1, width_kinds h.2]; omega
  | .types _ e, _ => by cases e <;> rfl
  | .to_ _ _ _, _ => rfl
  | .in_ _ no items, h => by cases no <;> simp [Tree.width, Tree.kinds, widths_list h.2.1 h.2.2] <;> omega
  | .array _ _ items, h => by simp [Tree.width, Tree.kinds, widths_list h.2.1 h.2.2]; omega
theorem widths_list : ∀ {ts : List Tree}, ts ≠ [] → gramAll ts → (listKinds (kindsAll ts)).length = Tree.widths ts + 1
  | [], h, _ => absurd rfl h
  | t :: ts, _, h => by simp [kindsAll, listKinds, Tree.widths, width_kinds h.1, widths_close h.2]; omega
theorem widths_close : ∀ {ts : List Tree}, gramAll ts → (closeKinds (kindsAll ts)).length = Tree.widths ts + 1
  | [], _ => rfl
  | t :: ts, h => by simp [kindsAll, closeKinds, Tree.widths, width_kinds h.1, widths_close h.2]; omega
end

/-- If the outcome is an InvalidExpressionException, it has a message with the property. -/
def NamedBy {α : Type} (P : JStr → Prop) (r : Told α) : Prop :=
  ∀ f, r = .error f → f.exn = .invalidExpression → ∃ m, f.message = some m ∧ P m

theorem named_ok {α : Type} {P : JStr → Prop} (a : α) : NamedBy P (.ok a : Told α) := fun _ h => by cases h

theorem named_bind {α β : Type} {P : JStr → Prop} {r : Told α} {f : α → Told β} (h : NamedBy P r)
    (hf : ∀ a, r = .ok a → NamedBy P (f a)) : NamedBy P (r >>= f) := by
  cases r with
  | ok a => exact hf a rfl
  | error e => intro g hg; exact h g (congrArg Except.error (Except.error.inj hg))

theorem named_bare {α : Type} {P : JStr → Prop} {r : Result α} (h : r ≠ .error .invalidExpression) :
    NamedBy P (bare r) := by
  cases r with
  | ok a => exact named_ok a
  | error e => intro f hf he; cases hf; exact absurd (congrArg _ he) h

theorem named_tell {α : Type} {P : JStr → Prop} {e : Exn} {m : JStr} (h : P m) : NamedBy P (tell e m : Told α) := by
  intro f hf _; cases hf; exact ⟨m, rfl, h⟩

theorem unquote_quiet (s : JStr) : unquote s ≠ .error .invalidExpression := by
  unfold unquote; split <;> intro h <;> cases h

theorem convert_quiet (s : JStr) (t : DataType) : convertValue s t ≠ .error .invalidExpression := by
  unfold convertValue
  cases t <;> simp only
  · split
    · intro h
      obtain h | ⟨a, _, h⟩ := bind_err_inv h
      · exact unquote_quiet s h
      · cases h
    · split
      · intro h
        obtain h | ⟨a, _, h⟩ := bind_err_inv h
        · exact unquote_quiet s h
        · cases h
      · intro h; cases h
  all_goals first
    | (split <;> intro h <;> cases h)
    | (intro h; cases h)

theorem mapTypes_quiet (df : Option JStr) (t : Token) (e : Bool) : mapTypes df t e ≠ .error .invalidExpression := by
  unfold mapTypes
  split
  · intro h; cases h
  · split
    · intro h; cases h
    · intro h
      obtain h | ⟨a, _, h⟩ := bind_err_inv h
      · exact convert_quiet _ _ h
      · cases h

theorem popN_quiet (st : NStack) : popN st ≠ .error .invalidExpression := by cases st <;> intro h <;> cases h

theorem exitNeg_quiet (df : Option JStr) (t : Tree) (s : LState) : exitNeg df t s ≠ .error .invalidExpression := by
  have leaf : (match t with
      | .types t em => (do let n ← mapTypes df t em; pure { s with stack := .neg n :: s.stack } : Result LState)
      | _ => .error .classCast) ≠ .error .invalidExpression := by
    split
    · intro h
      obtain h | ⟨a, _, h⟩ := bind_err_inv h
      · exact mapTypes_quiet _ _ _ h
      · cases h
    · intro h; cases h
  unfold exitNeg
  simp only
  split
  · split
    · intro h; cases h
    · exact leaf
  · exact leaf

/-! ### Pieces -/

section
variable {all : List Token}

/-- The texts of tokens. -/
abbrev textsOf (ts : List Token) : List JStr := ts.map Token.text

theorem flat_texts (c : List Token) : c.flatMap Token.text = (textsOf c).flatten := by
  simp [textsOf, List.flatMap_def]

theorem classified_all {c : List Token} (h : ∀ t ∈ c, Classified t.text t.kind) : List.Forall₂ Classified (textsOf c) (kindsOf c) := by
  induction c with
  | nil => exact .nil
  | cons t c ih => exact .cons (h t (by simp)) (ih fun u hu => h u (by simp [hu]))

theorem piece_expr {t : Tree} {c : List Token} (hg : t.Gram) (hk : kindsOf c = t.kinds) (h : ∀ t ∈ c, Classified t.text t.kind) :
    IsExpr (textsOf c) := ⟨kindsOf c, classified_all h, by rw [hk]; exact gram_expr hg⟩

theorem textAt_piece {t : Tree} {c post : List Token} (hg : t.Gram) (hk : kindsOf c = t.kinds) :
    t.textAt (c ++ post) = (textsOf c).flatten := by
  rw [Tree.textAt, width_kinds hg, ← hk, kindsOf, List.length_map, List.take_left, flat_texts]

theorem drop_piece {t : Tree} {c : List Token} (hg : t.Gram) (hk : kindsOf c = t.kinds) (o : Token) (r : List Token) :
    (c ++ o :: r).drop (t.width + 1) = r := by
  rw [width_kinds hg, ← hk, kindsOf, List.length_map]
  rw [show c ++ o :: r = (c ++ [o]) ++ r by simp]
  exact List.drop_left' (by simp)

theorem kinds_cons {c : List Token} {k : TK} {ks : List TK} (h : kindsOf c = k :: ks) :
    ∃ o r, c = o :: r ∧ o.kind = k ∧ kindsOf r = ks := by
  cases c with
  | nil => cases h
  | cons o r => injection h with h1 h2; exact ⟨o, r, rfl, h1, h2⟩

theorem kinds_append {c : List Token} {a b : List TK} (h : kindsOf c = a ++ b) :
    ∃ x y, c = x ++ y ∧ kindsOf x = a ∧ kindsOf y = b := by
  obtain ⟨x, y, e, h1, h2⟩ := List.map_eq_append_iff.1 h
  exact ⟨x, y, e, h1, h2⟩

theorem kinds_between {c : List Token} {a b : List TK} {k : TK} (h : kindsOf c = a ++ k :: b) :
    ∃ x o y, c = x ++ o :: y ∧ kindsOf x = a ∧ o.kind = k ∧ kindsOf y = b := by
  obtain ⟨x, y, e, h1, h2⟩ := kinds_append h
  obtain ⟨o, z, e', h3, h4⟩ := kinds_cons h2
  exact ⟨x, o, z, by rw [e, e'], h1, h3, h4⟩

/-- An item or side, over tokens. -/
def SlotT (pre post : List Token) : Prop :=
  ((∃ q o, pre = q ++ [o] ∧ (o.kind = .lparen ∨ o.kind = .comma)) ∧ ∃ o q, post = o :: q ∧ (o.kind = .comma ∨ o.kind = .rparen)) ∨
  (∃ q o c, pre = q ++ [o] ∧ o.kind = .cmp c) ∨ ∃ o q c, post = o :: q ∧ o.kind = .cmp c

theorem slot_texts {pre post : List Token} (h : SlotT pre post) (h1 : ∀ t ∈ pre, Classified t.text t.kind)
    (h2 : ∀ t ∈ post, Classified t.text t.kind) : InSlot (textsOf pre) (textsOf post) := by
  rcases h with ⟨⟨q, o, rfl, ho⟩, u, v, rfl, hu⟩ | ⟨q, o, c, rfl, ho⟩ | ⟨o, q, c, rfl, ho⟩
  · have e1 := h1 o (by simp)
    have e2 := h2 u (by simp)
    refine .inl ⟨?_, ?_⟩
    · rcases ho with h | h <;> rw [h] at e1
      · exact .inl ⟨textsOf q, o.text, by simp [textsOf], e1⟩
      · exact .inr ⟨textsOf q, o.text, by simp [textsOf], e1⟩
    · rcases hu with h | h <;> rw [h] at e2
      · exact .inl ⟨u.text, textsOf v, rfl, e2⟩
      · exact .inr ⟨u.text, textsOf v, rfl, e2⟩
  · exact .inr (.inl ⟨c, textsOf q, o.text, by simp [textsOf], ho ▸ h1 o (by simp)⟩)
  · exact .inr (.inr ⟨c, o.text, textsOf q, rfl, ho ▸ h2 o (by simp)⟩)

/-- No operand by itself. -/
theorem not_operand {t : Tree} {c : List Token} (hk : kindsOf c = t.kinds) (ht : t.isTypes = false)
    (h : ∀ t ∈ c, Classified t.text t.kind) : ¬ IsOperand (textsOf c) := by
  have one : ∀ {k : TK} {a b : List TK}, a ++ k :: b = [] ∨ (∃ j, a ++ k :: b = [j] ∧ j ∈ typesKinds) → k ∈ typesKinds := by
    intro k a b h
    rcases h with h | ⟨j, h, hj⟩
    · simp at h
    · cases a with
      | nil => injection h with h1 h2; rw [h1]; exact hj
      | cons x a => injection h with h1 h2; simp at h2
  have key : IsOperand (textsOf c) → t.kinds = [] ∨ ∃ j, t.kinds = [j] ∧ j ∈ typesKinds := by
    rintro (e | ⟨u, k, e, hu, hm⟩)
    · left
      rw [← hk]
      cases c with
      | nil => rfl
      | cons _ _ => cases e
    · right
      match c, e with
      | [o], e =>
        injection e with e1 e2
        subst e1
        exact ⟨o.kind, hk.symm, by rw [classified_one (h o (by simp)) hu]; exact hm⟩
      | [], e => cases e
      | _ :: _ :: _, e => injection e with e1 e2; cases e2
  intro ho
  have hw := key ho
  cases t with
  | paren t => exact absurd (one (a := []) hw) (by decide)
  | not_ t => exact absurd (one (a := []) hw) (by decide)
  | cmp o l r => exact absurd (one hw) (by cases o <;> decide)
  | neg t => exact absurd (one (a := []) hw) (by decide)
  | arith o l r => exact absurd (one hw) (by cases o <;> decide)
  | func f items => exact absurd (one (a := []) hw) (by cases f <;> decide)
  | bin c l r => exact absurd (one hw) (by cases c <;> decide)
  | types t e => cases ht
  | to_ f lo hi => rw [Tree.kinds] at hw; rcases hw with h | ⟨j, h, _⟩ <;> cases h
  | in_ f no items =>
    rw [Tree.kinds] at hw
    cases no <;> rcases hw with h | ⟨j, h, _⟩ <;> cases h
  | array f op items => rw [Tree.kinds] at hw; rcases hw with h | ⟨j, h, _⟩ <;> cases h

/-- The contexts that `mapContextToNode` refuses. -/
def Tree.unlisted : Tree → Bool
  | .paren _ | .not_ _ | .neg _ | .bin _ _ _ | .array _ _ _ => true
  | _ => false

theorem unlisted_piece {t : Tree} {c : List Token} (hg : t.Gram) (hk : kindsOf c = t.kinds) (ht : t.unlisted = true)
    (h : ∀ t ∈ c, Classified t.text t.kind) : Unlisted (textsOf c) := by
  cases t with
  | paren t =>
    obtain ⟨o, r, rfl, ho, hr⟩ := kinds_cons hk
    obtain ⟨x, y, rfl, hx, hy⟩ := kinds_append hr
    obtain ⟨p, z, rfl, hp, hz⟩ := kinds_cons hy
    cases z with
    | cons _ _ => cases hz
    | nil =>
      rw [show textsOf (o :: (x ++ [p])) = o.text :: (textsOf x ++ [p.text]) by simp [textsOf]]
      exact .paren (ho ▸ h o (by simp)) (piece_expr (t := t) hg hx fun u hu => h u (by simp [hu])) (hp ▸ h p (by simp))
  | not_ t =>
    obtain ⟨o, r, rfl, ho, hr⟩ := kinds_cons hk
    exact .not_ (ho ▸ h o (by simp)) (piece_expr (t := t) hg hr fun u hu => h u (by simp [hu]))
  | neg t =>
    obtain ⟨o, r, rfl, ho, hr⟩ := kinds_cons hk
    exact .minus (ho ▸ h o (by simp)) (piece_expr (t := t) hg hr fun u hu => h u (by simp [hu]))
  | bin b l r =>
    obtain ⟨x, o, y, rfl, hx, ho, hy⟩ := kinds_between hk
    rw [show textsOf (x ++ o :: y) = textsOf x ++ o.text :: textsOf y by simp [textsOf]]
    refine .joined ?_ (piece_expr hg.1 hx fun u hu => h u (by simp [hu])) (piece_expr hg.2 hy fun u hu => h u (by simp [hu]))
    have := h o (by simp)
    rw [ho] at this
    cases b
    · exact .inr this
    · exact .inl this
  | array f op items =>
    obtain ⟨o, r, rfl, ho, hr⟩ := kinds_cons hk
    obtain ⟨p, z, rfl, hp, hz⟩ := kinds_cons hr
    have h1 := h o (by simp)
    have h2 := h p (by simp)
    rw [ho, hg.1] at h1
    rw [hp] at h2
    refine .contains h1 ?_ (piece_expr (c := o :: p :: z) hg hk h)
    cases op
    · exact .inl h2
    · exact .inr h2
  | _ => cases ht

end

/-! ### The walk -/

section
variable {all : List Token} (hall : ∀ t ∈ all, Classified t.text t.kind) (df : Option JStr)

include hall in
theorem item_named {t : Tree} {pre c post : List Token} (ha : all = pre ++ (c ++ post)) (hg : t.Gram) (hk : kindsOf c = t.kinds)
    (hs : SlotT pre post) (ht : t.unlisted = true) {α : Type} :
    NamedBy (Reproach (textsOf all)) (tell .invalidExpression (itemText (t.textAt (c ++ post))) : Told α) := by
  subst ha
  refine named_tell ?_
  rw [textAt_piece hg hk, itemText]
  exact .part (pre := textsOf pre) (post := textsOf post) (by simp [textsOf])
    (slot_texts hs (fun u hu => hall u (by simp [hu])) (fun u hu => hall u (by simp [hu])))
    (unlisted_piece hg hk ht fun u hu => hall u (by simp [hu]))

include hall in
theorem calculation_named {op : ArithOp} {l r : Tree} {pre c post : List Token} (ha : all = pre ++ (c ++ post))
    (hg : (Tree.arith op l r).Gram) (hk : kindsOf c = (Tree.arith op l r).kinds) (hl : l.isTypes = false) (hr : r.isTypes = false)
    {α : Type} : NamedBy (Reproach (textsOf all))
      (tell .invalidExpression (expressionText ((Tree.arith op l r).textAt (c ++ post))) : Told α) := by
  subst ha
  refine named_tell ?_
  rw [textAt_piece hg hk, expressionText]
  obtain ⟨x, o, y, rfl, hx, ho, hy⟩ := kinds_between hk
  have hc : ∀ u ∈ x ++ o :: y, Classified u.text u.kind := fun u hu => hall u (by
    rw [List.mem_append, List.mem_append]; exact .inr (.inl hu))
  have h1 := hc o (by simp)
  rw [ho] at h1
  rw [show textsOf (x ++ o :: y) = textsOf x ++ o.text :: textsOf y by simp [textsOf]]
  exact .calculation (pre := textsOf pre) (post := textsOf post) (by simp [textsOf]) h1
    (piece_expr hg.1 hx fun u hu => hc u (by simp [hu])) (piece_expr hg.2 hy fun u hu => hc u (by simp [hu]))
    (not_operand hx hl fun u hu => hc u (by simp [hu])) (not_operand hy hr fun u hu => hc u (by simp [hu]))

include hall in
theorem joined_named {b : Bool} {l r : Tree} {pre c post : List Token} (ha : all = pre ++ (c ++ post))
    (hg : (Tree.bin b l r).Gram) (hk : kindsOf c = (Tree.bin b l r).kinds) {α : Type} : NamedBy (Reproach (textsOf all))
      (tell .invalidExpression (binaryText ((Tree.bin b l r).textAt (c ++ post))) : Told α) := by
  subst ha
  refine named_tell ?_
  rw [textAt_piece hg hk, binaryText]
  obtain ⟨x, o, y, rfl, hx, ho, hy⟩ := kinds_between hk
  have hc : ∀ u ∈ x ++ o :: y, Classified u.text u.kind := fun u hu => hall u (by
    rw [List.mem_append, List.mem_append]; exact .inr (.inl hu))
  have h1 := hc o (by simp)
  rw [ho] at h1
  rw [show textsOf (x ++ o :: y) = textsOf x ++ o.text :: textsOf y by simp [textsOf]]
  refine .joined (pre := textsOf pre) (post := textsOf post) (by simp [textsOf]) ?_
    (piece_expr hg.1 hx fun u hu => hc u (by simp [hu])) (piece_expr hg.2 hy fun u hu => hc u (by simp [hu]))
  cases b
  · exact .inr h1
  · exact .inl h1

include hall in
mutual
theorem mapNodeX_named : ∀ (t : Tree) {pre c post : List Token}, all = pre ++ (c ++ post) → t.Gram → kindsOf c = t.kinds →
    (t.unlisted = true → SlotT pre post) → ∀ st, NamedBy (Reproach (textsOf all)) (mapNodeX df t (c ++ post) st)
  | .types t e, _, _, _, _, _, _, _, st => by
    rw [mapNodeX]
    exact named_bind (named_bare (mapTypes_quiet _ _ _)) fun _ _ => named_ok _
  | .func f items, pre, c, post, ha, hg, hk, _, st => by
    obtain ⟨o, r, rfl, ho, hr⟩ := kinds_cons hk
    rw [mapNodeX]
    refine named_bind ?_ fun _ _ => named_ok _
    cases items with
    | nil => exact absurd rfl hg.1
    | cons i is =>
      obtain ⟨p, z, rfl, hp, hz⟩ := kinds_cons hr
      exact mapNodesX_named (i :: is) (pre := pre ++ [o, p]) (c := z) (by rw [ha]; simp) hg.2 ⟨pre ++ [o], p, by simp, .inl hp⟩
        (fun _ _ e => by cases e; exact hz) st
  | .in_ f no items, pre, c, post, ha, hg, hk, _, st => by
    obtain ⟨o, r, rfl, ho, hr⟩ := kinds_cons hk
    rw [mapNodeX]
    refine named_bind ?_ fun _ _ => named_ok _
    cases items with
    | nil => exact absurd rfl hg.2.1
    | cons i is =>
      cases no with
      | false =>
        obtain ⟨p, z, rfl, hp, hz⟩ := kinds_cons hr
        obtain ⟨q, y, rfl, hq, hy⟩ := kinds_cons hz
        exact mapNodesX_named (i :: is) (pre := pre ++ [o, p, q]) (c := y) (by rw [ha]; simp) hg.2.2
          ⟨pre ++ [o, p], q, by simp, .inl hq⟩ (fun _ _ e => by cases e; exact hy) st
      | true =>
        obtain ⟨p, z, rfl, hp, hz⟩ := kinds_cons hr
        obtain ⟨q, y, rfl, hq, hy⟩ := kinds_cons hz
        obtain ⟨w, x, rfl, hw, hx⟩ := kinds_cons hy
        exact mapNodesX_named (i :: is) (pre := pre ++ [o, p, q, w]) (c := x) (by rw [ha]; simp) hg.2.2
          ⟨pre ++ [o, p, q], w, by simp, .inl hw⟩ (fun _ _ e => by cases e; exact hx) st
  | .to_ f lo hi, _, _, _, _, _, _, _, st => by
    rw [mapNodeX]
    exact named_bind (named_bare (convert_quiet _ _)) fun _ _ => named_bind (named_bare (convert_quiet _ _)) fun _ _ => named_ok _
  | .cmp op l r, pre, c, post, ha, hg, hk, _, st => by
    obtain ⟨x, o, y, rfl, hx, ho, hy⟩ := kinds_between hk
    have hl : ∀ st, NamedBy (Reproach (textsOf all)) (mapNodeX df l (x ++ o :: y ++ post) st) := fun st => by
      have := mapNodeX_named l (pre := pre) (c := x) (post := o :: (y ++ post)) (by rw [ha]; simp) hg.1 hx
        (fun _ => .inr (.inr ⟨o, _, op, rfl, ho⟩)) st
      simpa using this
    have hr : ∀ st, NamedBy (Reproach (textsOf all)) (mapNodeX df r ((x ++ o :: y ++ post).drop (l.width + 1)) st) := fun st => by
      rw [show x ++ o :: y ++ post = x ++ o :: (y ++ post) by simp, drop_piece hg.1 hx]
      exact mapNodeX_named r (pre := pre ++ x ++ [o]) (c := y) (post := post) (by rw [ha]; simp) hg.2 hy
        (fun _ => .inr (.inl ⟨pre ++ x, o, op, by simp, ho⟩)) st
    rw [mapNodeX]
    split
    · exact named_bind (hl st) fun _ _ => named_bind (named_bare (popN_quiet _)) fun _ _ => named_ok _
    · split
      · exact named_bind (hr st) fun _ _ => named_bind (named_bare (popN_quiet _)) fun _ _ => named_ok _
      · exact named_bind (hr st) fun _ _ => named_bind (hl _) fun _ _ => named_ok _
  | .arith op l r, pre, c, post, ha, hg, hk, _, st => by
    have hk' := hk
    obtain ⟨x, o, y, rfl, hx, ho, hy⟩ := kinds_between hk'
    have hl : l.isTypes = true → ∀ st, NamedBy (Reproach (textsOf all)) (mapNodeX df l (x ++ o :: y ++ post) st) := fun e st => by
      have := mapNodeX_named l (pre := pre) (c := x) (post := o :: (y ++ post)) (by rw [ha]; simp) hg.1 hx
        (fun h => by cases l <;> first | (cases h; done) | (cases e; done)) st
      simpa using this
    have hr : r.isTypes = true → ∀ st, NamedBy (Reproach (textsOf all)) (mapNodeX df r ((x ++ o :: y ++ post).drop (l.width + 1)) st) :=
      fun e st => by
      rw [show x ++ o :: y ++ post = x ++ o :: (y ++ post) by simp, drop_piece hg.1 hx]
      exact mapNodeX_named r (pre := pre ++ x ++ [o]) (c := y) (post := post) (by rw [ha]; simp) hg.2 hy
        (fun h => by cases r <;> first | (cases h; done) | (cases e; done)) st
    have fin : r.isTypes ≠ true → l.isTypes ≠ true → NamedBy (Reproach (textsOf all))
        (tell .invalidExpression (expressionText ((Tree.arith op l r).textAt (x ++ o :: y ++ post))) : Told (Node × NStack)) :=
      fun h2 h1 => calculation_named hall ha hg hk (by simpa using h1) (by simpa using h2)
    rcases st with _ | ⟨b, _ | ⟨a, st⟩⟩ <;> simp only [mapNodeX]
    all_goals
      split
      · rename_i h
        rw [Bool.and_eq_true] at h
        exact named_bind (hl h.1 _) fun _ _ => named_bind (hr h.2 _) fun _ _ => named_ok _
      · split
        · rename_i h
          exact named_bind (hl h _) fun _ _ => named_bind (named_bare (popN_quiet _)) fun _ _ => named_ok _
        · split
          · rename_i h
            exact named_bind (hr h _) fun _ _ => named_bind (named_bare (popN_quiet _)) fun _ _ => named_ok _
          · rename_i h1 h2
            first
              | exact named_ok _
              | exact fin h2 h1
  | .paren t, pre, c, post, ha, hg, hk, hs, st => by rw [mapNodeX]; exact item_named hall ha hg hk (hs rfl) rfl
  | .not_ t, pre, c, post, ha, hg, hk, hs, st => by rw [mapNodeX]; exact item_named hall ha hg hk (hs rfl) rfl
  | .neg t, pre, c, post, ha, hg, hk, hs, st => by rw [mapNodeX]; exact item_named hall ha hg hk (hs rfl) rfl
  | .bin b l r, pre, c, post, ha, hg, hk, hs, st => by rw [mapNodeX]; exact item_named hall ha hg hk (hs rfl) rfl
  | .array f o items, pre, c, post, ha, hg, hk, hs, st => by rw [mapNodeX]; exact item_named hall ha hg hk (hs rfl) rfl
theorem mapNodesX_named : ∀ (ts : List Tree) {pre c post : List Token}, all = pre ++ (c ++ post) → gramAll ts →
    (∃ q o, pre = q ++ [o] ∧ (o.kind = .lparen ∨ o.kind = .comma)) →
    (∀ i is, ts = i :: is → kindsOf c = i.kinds ++ closeKinds (kindsAll is)) →
    ∀ st, NamedBy (Reproach (textsOf all)) (mapNodesX df ts (c ++ post) st)
  | [], _, _, _, _, _, _, _, st => by rw [mapNodesX]; exact named_ok _
  | t :: ts, pre, c, post, ha, hg, hp, hk, st => by
    rw [mapNodesX]
    obtain ⟨x, z, rfl, hx, hz⟩ := kinds_append (hk _ _ rfl)
    cases ts with
    | nil =>
      obtain ⟨o, y, rfl, ho, hy⟩ := kinds_cons hz
      refine named_bind ?_ fun _ _ => named_bind (by rw [mapNodesX]; exact named_ok _) fun _ _ => named_ok _
      have := mapNodeX_named t (pre := pre) (c := x) (post := o :: (y ++ post)) (by rw [ha]; simp) hg.1 hx
        (fun _ => .inl ⟨hp, o, _, rfl, .inr ho⟩) st
      simpa using this
    | cons i is =>
      obtain ⟨o, y, rfl, ho, hy⟩ := kinds_cons hz
      refine named_bind ?_ fun _ _ => named_bind ?_ fun _ _ => named_ok _
      · have := mapNodeX_named t (pre := pre) (c := x) (post := o :: (y ++ post)) (by rw [ha]; simp) hg.1 hx
          (fun _ => .inl ⟨hp, o, _, rfl, .inl ho⟩) st
        simpa using this
      · rw [show x ++ o :: y ++ post = x ++ o :: (y ++ post) by simp, drop_piece hg.1 hx]
        exact mapNodesX_named (i :: is) (pre := pre ++ x ++ [o]) (c := y) (post := post) (by rw [ha]; simp) hg.2
          ⟨pre ++ x, o, by simp, .inr ho⟩ (fun _ _ e => by cases e; exact hy) _
end

/-! ### Walking -/

theorem exitMapped_pushes {t : Tree} {s s' : LState} (h : exitMapped df t s = .ok s') : s'.stack ≠ [] := by
  obtain ⟨⟨n, st⟩, _, h⟩ := bind_ok_inv h
  cases h
  simp

theorem exitNeg_pushes {t : Tree} {s s' : LState} (h : exitNeg df t s = .ok s') : s'.stack ≠ [] := by
  have leaf : (match t with
      | .types t em => (do let n ← mapTypes df t em; pure { s with stack := .neg n :: s.stack } : Result LState)
      | _ => .error .classCast) = .ok s' → s'.stack ≠ [] := by
    intro h
    split at h
    · obtain ⟨n, _, h⟩ := bind_ok_inv h
      cases h; simp
    · cases h
  unfold exitNeg at h
  simp only at h
  split at h
  · split at h
    · cases h; simp
    · exact leaf h
  · exact leaf h

theorem walk_touched : ∀ (t : Tree) {s s' : LState}, walk df t s = .ok s' →
    s'.stack ≠ [] ∨ (s'.last.isSome = true ∧ s'.count = s.count + 1)
  | .paren t, s, s', h => by rw [walk] at h; exact walk_touched t h
  | .not_ t, s, s', h => by
    rw [walk] at h
    obtain ⟨s1, _, h⟩ := bind_ok_inv h
    left
    unfold exitNot at h
    split at h
    · cases h; simp
    · split at h
      · cases h
      · obtain ⟨v, _, h⟩ := bind_ok_inv h
        cases h; simp
  | .cmp _ _ _, s, s', h => by
    rw [walk] at h
    obtain ⟨s1, _, h⟩ := bind_ok_inv h
    obtain ⟨s2, _, h⟩ := bind_ok_inv h
    exact .inl (exitMapped_pushes df h)
  | .neg _, s, s', h => by
    rw [walk] at h
    obtain ⟨s1, _, h⟩ := bind_ok_inv h
    exact .inl (exitNeg_pushes df h)
  | .arith _ _ _, s, s', h => by
    rw [walk] at h
    obtain ⟨s1, _, h⟩ := bind_ok_inv h
    obtain ⟨s2, _, h⟩ := bind_ok_inv h
    exact .inl (exitMapped_pushes df h)
  | .func _ _, s, s', h => by
    rw [walk] at h
    obtain ⟨s1, _, h⟩ := bind_ok_inv h
    exact .inl (exitMapped_pushes df h)
  | .bin c _ _, s, s', h => by
    rw [walk] at h
    obtain ⟨s1, _, h⟩ := bind_ok_inv h
    obtain ⟨s2, _, h⟩ := bind_ok_inv h
    left
    unfold exitBin at h
    split at h
    · cases h; simp
    · cases h
  | .types _ _, s, s', h => by rw [walk] at h; cases h; exact .inr ⟨rfl, rfl⟩
  | .to_ _ _ _, s, s', h => by rw [walk] at h; exact .inl (exitMapped_pushes df h)
  | .in_ _ _ _, s, s', h => by
    rw [walk] at h
    obtain ⟨s1, _, h⟩ := bind_ok_inv h
    exact .inl (exitMapped_pushes df h)
  | .array _ _ _, s, s', h => by
    rw [walk] at h
    obtain ⟨s1, _, h⟩ := bind_ok_inv h
    obtain ⟨⟨n, st⟩, _, h⟩ := bind_ok_inv h
    cases h
    exact .inl (by simp)

theorem walkX_walk {t : Tree} {ks : List Token} {s s' : LState} (h : walkX df t ks s = .ok s') : walk df t s = .ok s' := by
  rw [← walkX_same df t ks s, h]; rfl

include hall in
theorem exitMappedX_named {t : Tree} {pre c post : List Token} (ha : all = pre ++ (c ++ post)) (hg : t.Gram)
    (hk : kindsOf c = t.kinds) (hu : t.unlisted = false) (s : LState) :
    NamedBy (Reproach (textsOf all)) (exitMappedX df t (c ++ post) s) :=
  named_bind (mapNodeX_named hall df t ha hg hk (fun h => by rw [hu] at h; cases h) _) fun _ _ => named_ok _

include hall in
mutual
theorem walkX_named : ∀ (t : Tree) {pre c post : List Token}, all = pre ++ (c ++ post) → t.Gram → kindsOf c = t.kinds →
    ∀ s, NamedBy (Reproach (textsOf all)) (walkX df t (c ++ post) s)
  | .paren t, pre, c, post, ha, hg, hk, s => by
    obtain ⟨o, r, rfl, ho, hr⟩ := kinds_cons hk
    obtain ⟨x, y, rfl, hx, hy⟩ := kinds_append hr
    rw [walkX]
    have := walkX_named t (pre := pre ++ [o]) (c := x) (post := y ++ post) (by rw [ha]; simp) hg hx s
    simpa using this
  | .not_ t, pre, c, post, ha, hg, hk, s => by
    obtain ⟨o, r, rfl, ho, hr⟩ := kinds_cons hk
    rw [walkX]
    refine named_bind (walkX_named t (pre := pre ++ [o]) (c := r) (post := post) (by rw [ha]; simp) hg hr s) fun s1 h1 => ?_
    have := walk_touched df t (walkX_walk df h1)
    unfold exitNotX
    split
    · exact named_ok _
    · rename_i e
      split
      · rename_i e'
        rcases this with h | ⟨h, _⟩
        · exact absurd e h
        · rw [e'] at h; cases h
      · exact named_bind (named_bare (convert_quiet _ _)) fun _ _ => named_ok _
  | .cmp op l r, pre, c, post, ha, hg, hk, s => by
    have hm := fun s => exitMappedX_named hall df ha hg hk rfl s
    obtain ⟨x, o, y, rfl, hx, ho, hy⟩ := kinds_between hk
    rw [walkX]
    refine named_bind ?_ fun _ _ => named_bind ?_ fun _ _ => hm _
    · have := walkX_named l (pre := pre) (c := x) (post := o :: (y ++ post)) (by rw [ha]; simp) hg.1 hx s
      simpa using this
    · rw [show x ++ o :: y ++ post = x ++ o :: (y ++ post) by simp, drop_piece hg.1 hx]
      exact walkX_named r (pre := pre ++ x ++ [o]) (c := y) (post := post) (by rw [ha]; simp) hg.2 hy _
  | .neg t, pre, c, post, ha, hg, hk, s => by
    obtain ⟨o, r, rfl, ho, hr⟩ := kinds_cons hk
    rw [walkX]
    exact named_bind (walkX_named t (pre := pre ++ [o]) (c := r) (post := post) (by rw [ha]; simp) hg hr s) fun s1 h1 =>
      named_bare (exitNeg_quiet _ _ _)
  | .arith op l r, pre, c, post, ha, hg, hk, s => by
    have hm := fun s => exitMappedX_named hall df ha hg hk rfl s
    obtain ⟨x, o, y, rfl, hx, ho, hy⟩ := kinds_between hk
    rw [walkX]
    refine named_bind ?_ fun _ _ => named_bind ?_ fun _ _ => hm _
    · have := walkX_named l (pre := pre) (c := x) (post := o :: (y ++ post)) (by rw [ha]; simp) hg.1 hx s
      simpa using this
    · rw [show x ++ o :: y ++ post = x ++ o :: (y ++ post) by simp, drop_piece hg.1 hx]
      exact walkX_named r (pre := pre ++ x ++ [o]) (c := y) (post := post) (by rw [ha]; simp) hg.2 hy _
  | .func f items, pre, c, post, ha, hg, hk, s => by
    have hm := fun s => exitMappedX_named hall df ha hg hk rfl s
    obtain ⟨o, r, rfl, ho, hr⟩ := kinds_cons hk
    rw [walkX]
    refine named_bind ?_ fun _ _ => hm _
    cases items with
    | nil => exact absurd rfl hg.1
    | cons i is =>
      obtain ⟨p, z, rfl, hp, hz⟩ := kinds_cons hr
      exact walkAllX_named (i :: is) (pre := pre ++ [o, p]) (c := z) (by rw [ha]; simp) hg.2 (fun _ _ e => by cases e; exact hz) s
  | .bin b l r, pre, c, post, ha, hg, hk, s => by
    have hm := fun {α : Type} => joined_named hall ha hg hk (α := α)
    obtain ⟨x, o, y, rfl, hx, ho, hy⟩ := kinds_between hk
    rw [walkX]
    refine named_bind ?_ fun _ _ => named_bind ?_ fun _ _ => ?_
    · have := walkX_named l (pre := pre) (c := x) (post := o :: (y ++ post)) (by rw [ha]; simp) hg.1 hx s
      simpa using this
    · rw [show x ++ o :: y ++ post = x ++ o :: (y ++ post) by simp, drop_piece hg.1 hx]
      exact walkX_named r (pre := pre ++ x ++ [o]) (c := y) (post := post) (by rw [ha]; simp) hg.2 hy _
    · unfold exitBinX
      split
      · exact named_ok _
      · exact hm
  | .types t e, pre, c, post, ha, hg, hk, s => by rw [walkX]; exact named_ok _
  | .to_ f lo hi, pre, c, post, ha, hg, hk, s => by rw [walkX]; exact exitMappedX_named hall df ha hg hk rfl s
  | .in_ f no items, pre, c, post, ha, hg, hk, s => by
    have hm := fun s => exitMappedX_named hall df ha hg hk rfl s
    obtain ⟨o, r, rfl, ho, hr⟩ := kinds_cons hk
    rw [walkX]
    refine named_bind ?_ fun _ _ => hm _
    cases items with
    | nil => exact absurd rfl hg.2.1
    | cons i is =>
      cases no with
      | false =>
        obtain ⟨p, z, rfl, hp, hz⟩ := kinds_cons hr
        obtain ⟨q, y, rfl, hq, hy⟩ := kinds_cons hz
        exact walkAllX_named (i :: is) (pre := pre ++ [o, p, q]) (c := y) (by rw [ha]; simp) hg.2.2
          (fun _ _ e => by cases e; exact hy) s
      | true =>
        obtain ⟨p, z, rfl, hp, hz⟩ := kinds_cons hr
        obtain ⟨q, y, rfl, hq, hy⟩ := kinds_cons hz
        obtain ⟨w, x, rfl, hw, hx⟩ := kinds_cons hy
        exact walkAllX_named (i :: is) (pre := pre ++ [o, p, q, w]) (c := x) (by rw [ha]; simp) hg.2.2
          (fun _ _ e => by cases e; exact hx) s
  | .array f op items, pre, c, post, ha, hg, hk, s => by
    obtain ⟨o, r, rfl, ho, hr⟩ := kinds_cons hk
    cases items with
    | nil => exact absurd rfl hg.2.1
    | cons i is =>
      obtain ⟨p, z, rfl, hp, hz⟩ := kinds_cons hr
      obtain ⟨q, y, rfl, hq, hy⟩ := kinds_cons hz
      rw [walkX]
      refine named_bind ?_ fun _ _ => named_bind ?_ fun _ _ => named_ok _
      · exact walkAllX_named (i :: is) (pre := pre ++ [o, p, q]) (c := y) (by rw [ha]; simp) hg.2.2
          (fun _ _ e => by cases e; exact hy) s
      · exact mapNodesX_named hall df (i :: is) (pre := pre ++ [o, p, q]) (c := y) (by rw [ha]; simp) hg.2.2
          ⟨pre ++ [o, p], q, by simp, .inl hq⟩ (fun _ _ e => by cases e; exact hy) _
theorem walkAllX_named : ∀ (ts : List Tree) {pre c post : List Token}, all = pre ++ (c ++ post) → gramAll ts →
    (∀ i is, ts = i :: is → kindsOf c = i.kinds ++ closeKinds (kindsAll is)) →
    ∀ s, NamedBy (Reproach (textsOf all)) (walkAllX df ts (c ++ post) s)
  | [], _, _, _, _, _, _, s => by rw [walkAllX]; exact named_ok _
  | t :: ts, pre, c, post, ha, hg, hk, s => by
    rw [walkAllX]
    obtain ⟨x, z, rfl, hx, hz⟩ := kinds_append (hk _ _ rfl)
    have ht : NamedBy (Reproach (textsOf all)) (walkX df t (x ++ z ++ post) s) := by
      have := walkX_named t (pre := pre) (c := x) (post := z ++ post) (by rw [ha]; simp) hg.1 hx s
      simpa using this
    cases ts with
    | nil =>
      obtain ⟨o, y, rfl, ho, hy⟩ := kinds_cons hz
      exact named_bind ht fun _ _ => by rw [walkAllX]; exact named_ok _
    | cons i is =>
      obtain ⟨o, y, rfl, ho, hy⟩ := kinds_cons hz
      refine named_bind ht fun _ _ => ?_
      rw [show x ++ o :: y ++ post = x ++ o :: (y ++ post) by simp, drop_piece hg.1 hx]
      exact walkAllX_named (i :: is) (pre := pre ++ x ++ [o]) (c := y) (post := post) (by rw [ha]; simp) hg.2
        (fun _ _ e => by cases e; exact hy) _
end

end

end BoolParser
