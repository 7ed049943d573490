import Verif.Lemmas.FuelEnough
import Verif.Spec.Lexemes
/-!
# Reading back the tokens of a tree
-/

namespace BoolParser
open Spec (cmpText arithText connText fnText arrText)

/-! ### Canonical operator tokens -/

def lpTok : Token := ⟨.lparen, j!"("⟩
def rpTok : Token := ⟨.rparen, j!")"⟩
def commaTok : Token := ⟨.comma, j!","⟩
def notTok : Token := ⟨.kNot, j!"NOT"⟩
def inTok : Token := ⟨.kIn, j!"IN"⟩
def toTok : Token := ⟨.kTo, j!"TO"⟩

def cmpTok (op : CmpOp) : Token := ⟨.cmp op, cmpText op⟩
def arithTok (op : ArithOp) : Token := ⟨.arith op, arithText op⟩
def connTok (c : Bool) : Token := ⟨if c then .kAnd else .kOr, connText c⟩
def fnTok (f : FuncType) : Token := ⟨.fn f, fnText f⟩
def arrTok (op : ArrOp) : Token := ⟨match op with | .containsAll => .cAll | .containsAny => .cAny, arrText op⟩

/-- The operator token of a binary operator. -/
def BinTok.tok : BinTok → Token
  | .cmp op => cmpTok op
  | .arith op => arithTok op
  | .conn c => connTok c

theorem BinTok.tok_bin (b : BinTok) : binTok b.tok.kind = some b := by
  cases b with
  | cmp op => rfl
  | arith op => rfl
  | conn c => cases c <;> rfl

mutual
/-- The tokens of a tree, operators in their canonical spelling. -/
def Tree.toks : Tree → List Token
  | .paren t => lpTok :: (t.toks ++ [rpTok])
  | .not_ t => notTok :: t.toks
  | .cmp op l r => l.toks ++ cmpTok op :: r.toks
  | .neg t => arithTok .sub :: t.toks
  | .arith op l r => l.toks ++ arithTok op :: r.toks
  | .func f items => fnTok f :: lpTok :: (Tree.toksList items ++ [rpTok])
  | .bin c l r => l.toks ++ connTok c :: r.toks
  | .types t empty => if empty then [] else [t]
  | .to_ f lo hi => [f, lo, toTok, hi]
  | .in_ f ng items => f :: ((if ng then [notTok] else []) ++ inTok :: lpTok :: (Tree.toksList items ++ [rpTok]))
  | .array f op items => f :: arrTok op :: lpTok :: (Tree.toksList items ++ [rpTok])
/-- Items separated by commas. -/
def Tree.toksList : List Tree → List Token
  | [] => []
  | t :: ts => t.toks ++ Tree.toksMore ts
/-- `, item` for every item. -/
def Tree.toksMore : List Tree → List Token
  | [] => []
  | t :: ts => commaTok :: (t.toks ++ Tree.toksMore ts)
end

/-- May an operator of precedence `q` come after the tree without being taken into it? -/
def Tree.canFollow : Tree → Nat → Bool
  | .not_ e, q => e.canFollow q
  | .neg e, q => decide (q < 13) && e.canFollow q
  | .cmp _ _ r, q => decide (q < 15) && r.canFollow q
  | .arith op _ r, q => decide (q < (BinTok.arith op).prec + 1) && r.canFollow q
  | .bin _ _ r, q => decide (q < 6) && r.canFollow q
  | _, _ => true

/-- An omitted left operand before the comparison `op`. -/
def Tree.isOmitted (op : CmpOp) : Tree → Bool
  | .types t true => t == cmpTok op
  | _ => false

mutual
/-- The tree is grouped as the parser would group its tokens at precedence level `p`. -/
def Tree.WF : Nat → Tree → Bool
  | _, .paren t => Tree.WF 0 t
  | _, .not_ t => Tree.WF 15 t
  | p, .cmp op l r => decide (p ≤ 14) && ((l.isOmitted op || (Tree.WF p l && l.canFollow 14)) && Tree.WF 15 r)
  | _, .neg t => Tree.WF 13 t
  | p, .arith op l r =>
    decide (p ≤ (BinTok.arith op).prec) && (Tree.WF p l && (l.canFollow (BinTok.arith op).prec && Tree.WF ((BinTok.arith op).prec + 1) r))
  | _, .func _ items => !items.isEmpty && Tree.WFs items
  | p, .bin _ l r => decide (p ≤ 5) && (Tree.WF p l && (l.canFollow 5 && Tree.WF 6 r))
  | _, .types t empty => !empty && (isLitKind t.kind || t.kind == .field)
  | _, .to_ f lo hi => f.kind == .field && (isNumKind lo.kind && isNumKind hi.kind)
  | _, .in_ f _ items => f.kind == .field && (!items.isEmpty && Tree.WFs items)
  | _, .array f _ items => f.kind == .field && (!items.isEmpty && Tree.WFs items)
def Tree.WFs : List Tree → Bool
  | [] => true
  | t :: ts => Tree.WF 0 t && Tree.WFs ts
end

/-- What may come after an expression: the end, `)`, `,` or a binary operator. -/
def followOk : List Token → Bool
  | [] => true
  | t :: _ => t.kind == .rparen || (t.kind == .comma || (binTok t.kind).isSome)

/-- The operator next in line, if any, stays outside the tree. -/
def stays (t : Tree) (rest : List Token) : Prop :=
  ∀ u us b, rest = u :: us → binTok u.kind = some b → t.canFollow b.prec = true

/-- The operator next in line, if any, is below level `p`. -/
def stops (p : Nat) (rest : List Token) : Prop :=
  ∀ u us b, rest = u :: us → binTok u.kind = some b → b.prec < p

theorem pLoop_stops {p : Nat} {l : Tree} {rest : List Token} (h : stops p rest) :
    pLoop 1 p l rest = some (l, rest) := by
  cases rest with
  | nil => rfl
  | cons u us =>
    rw [pLoop]
    cases hb : binTok u.kind with
    | none => rfl
    | some b =>
      have := h u us b rfl hb
      simp only
      rw [if_neg (by omega)]

theorem prec_lt_15 (b : BinTok) : b.prec < 15 := by
  cases b with
  | cmp _ => exact (by decide : 14 < 15)
  | arith op => cases op <;> decide
  | conn _ => exact (by decide : 5 < 15)

theorem stops_15 (rest : List Token) : stops 15 rest := fun _ _ b _ _ => prec_lt_15 b

theorem pExpr_of_primary {f g p : Nat} {ts rest : List Token} {t : Tree} {res : Tree × List Token}
    (h1 : pPrimary f ts = some (t, rest)) (h2 : pLoop g p t rest = some res) :
    pExpr (max f g + 1) p ts = some res := by
  rw [pExpr, pPrimary_mono (Nat.le_max_left f g) h1]
  exact pLoop_mono (Nat.le_max_right f g) h2

/-- Reads back: with a loop answer for what follows, the expression call gives that answer. -/
def Back (p : Nat) (t : Tree) : Prop :=
  ∀ rest g res, followOk rest = true → stays t rest → pLoop g p t rest = some res →
    ∃ f, pExpr f p (t.toks ++ rest) = some res

theorem back_prim {p : Nat} {t : Tree}
    (h : ∀ rest, followOk rest = true → stays t rest → ∃ f, pPrimary f (t.toks ++ rest) = some (t, rest)) :
    Back p t := by
  intro rest g res hf hs hl
  obtain ⟨f, hp⟩ := h rest hf hs
  exact ⟨_, pExpr_of_primary hp hl⟩

theorem back_whole {p : Nat} {t : Tree} (hb : Back p t) {rest : List Token} (hf : followOk rest = true)
    (hs : stays t rest) (ht : stops p rest) : ∃ f, pExpr f p (t.toks ++ rest) = some (t, rest) :=
  hb rest 1 _ hf hs (pLoop_stops ht)

theorem followOk_tok (b : BinTok) (ts : List Token) : followOk (b.tok :: ts) = true := by
  simp [followOk, b.tok_bin]

theorem back_bin {p : Nat} {b : BinTok} {l r : Tree} (hp : p ≤ b.prec) (hl : Back p l)
    (hc : l.canFollow b.prec = true) (hr : Back (b.prec + 1) r)
    {rest : List Token} {g : Nat} {res : Tree × List Token} (hf : followOk rest = true)
    (hsr : stays r rest) (hst : stops (b.prec + 1) rest)
    (hg : pLoop g p (b.mk l r) rest = some res) :
    ∃ f, pExpr f p ((l.toks ++ b.tok :: r.toks) ++ rest) = some res := by
  obtain ⟨f1, h1⟩ := back_whole hr hf hsr hst
  have hloop : pLoop (max f1 g + 1) p l (b.tok :: (r.toks ++ rest)) = some res := by
    rw [pLoop, b.tok_bin]
    simp only
    rw [if_pos hp, pExpr_mono (Nat.le_max_left f1 g) h1]
    exact pLoop_mono (Nat.le_max_right f1 g) hg
  have := hl (b.tok :: (r.toks ++ rest)) _ res (followOk_tok b _)
    (by
      intro u us b' e hb'
      injection e with e1 e2
      rw [← e1, b.tok_bin] at hb'
      injection hb' with hb'
      rw [← hb']; exact hc) hloop
  simpa using this

theorem back_omitted {p : Nat} {op : CmpOp} {r : Tree} (hp : p ≤ 14) (hr : Back 15 r)
    {rest : List Token} {g : Nat} {res : Tree × List Token} (hf : followOk rest = true)
    (hsr : stays r rest)
    (hg : pLoop g p (.cmp op (.types (cmpTok op) true) r) rest = some res) :
    ∃ f, pExpr f p (cmpTok op :: (r.toks ++ rest)) = some res := by
  obtain ⟨f1, h1⟩ := back_whole hr hf hsr (stops_15 _)
  have hloop : pLoop (max f1 g + 1) p (.types (cmpTok op) true) (cmpTok op :: (r.toks ++ rest)) = some res := by
    rw [pLoop, show binTok (cmpTok op).kind = some (.cmp op) from rfl]
    simp only
    rw [if_pos (show p ≤ (BinTok.cmp op).prec from hp), show (BinTok.cmp op).prec + 1 = 15 from rfl,
      pExpr_mono (Nat.le_max_left f1 g) h1]
    exact pLoop_mono (Nat.le_max_right f1 g) hg
  exact ⟨_, pExpr_of_primary (f := 1) (t := .types (cmpTok op) true) (rest := cmpTok op :: (r.toks ++ rest)) rfl hloop⟩

theorem follow_field {rest : List Token} (h : followOk rest = true) (t : Token) :
    fieldTail 1 t rest = some (.types t false, rest) := by
  cases rest with
  | nil => rfl
  | cons u us =>
    have hu : isNumKind u.kind = false := by
      cases hk : u.kind <;> simp [followOk, hk, binTok] at h <;> rfl
    have ha : pAfterField 1 t (u :: us) = some (.types t false, u :: us) := by
      rw [pAfterField_cons]
      cases hk : u.kind <;> simp [followOk, hk, binTok] at h <;> rfl
    match us with
    | [] => simp [fieldTail, hu, ha]
    | [a] => simp [fieldTail, hu, ha]
    | a :: b :: cs => simp [fieldTail, hu, ha]

theorem followOk_rp (ts : List Token) : followOk (rpTok :: ts) = true := rfl
theorem followOk_comma (ts : List Token) : followOk (commaTok :: ts) = true := rfl

theorem stays_rp (t : Tree) (ts : List Token) : stays t (rpTok :: ts) := by
  intro u us b e hb
  injection e with e1 e2
  rw [← e1] at hb; cases hb

theorem stays_comma (t : Tree) (ts : List Token) : stays t (commaTok :: ts) := by
  intro u us b e hb
  injection e with e1 e2
  rw [← e1] at hb; cases hb

theorem stops_rp (p : Nat) (ts : List Token) : stops p (rpTok :: ts) := by
  intro u us b e hb
  injection e with e1 e2
  rw [← e1] at hb; cases hb

theorem stops_comma (p : Nat) (ts : List Token) : stops p (commaTok :: ts) := by
  intro u us b e hb
  injection e with e1 e2
  rw [← e1] at hb; cases hb

/-- Reading back the rest of a list of items. -/
def BackMore (ts : List Tree) : Prop :=
  ∀ rest, ∃ f, pMore f (Tree.toksMore ts ++ rpTok :: rest) = some (ts, rest)

theorem backMore_nil : BackMore [] := fun _ => ⟨1, rfl⟩

theorem next_more (ts : List Tree) (rest : List Token) :
    ∃ us, Tree.toksMore ts ++ rpTok :: rest = rpTok :: us ∨ Tree.toksMore ts ++ rpTok :: rest = commaTok :: us := by
  cases ts with
  | nil => exact ⟨rest, .inl rfl⟩
  | cons t ts =>
    refine ⟨(t.toks ++ Tree.toksMore ts) ++ rpTok :: rest, .inr ?_⟩
    rw [Tree.toksMore]; rfl

theorem back_item {t : Tree} (h : Back 0 t) (ts : List Tree) (rest : List Token) :
    ∃ f, pExpr f 0 (t.toks ++ (Tree.toksMore ts ++ rpTok :: rest)) = some (t, Tree.toksMore ts ++ rpTok :: rest) := by
  obtain ⟨us, e | e⟩ := next_more ts rest
  · rw [e]; exact back_whole h (followOk_rp _) (stays_rp _ _) (stops_rp _ _)
  · rw [e]; exact back_whole h (followOk_comma _) (stays_comma _ _) (stops_comma _ _)

theorem backMore_cons {t : Tree} {ts : List Tree} (h : Back 0 t) (hm : BackMore ts) : BackMore (t :: ts) := by
  intro rest
  obtain ⟨f1, h1⟩ := back_item h ts rest
  obtain ⟨f2, h2⟩ := hm rest
  refine ⟨max f1 f2 + 1, ?_⟩
  rw [Tree.toksMore]
  rw [show commaTok :: (t.toks ++ Tree.toksMore ts) ++ rpTok :: rest
      = commaTok :: (t.toks ++ (Tree.toksMore ts ++ rpTok :: rest)) by simp]
  rw [pMore]
  rw [if_neg (by decide), if_pos (by rfl), pExpr_mono (Nat.le_max_left f1 f2) h1]
  simp only
  rw [pMore_mono (Nat.le_max_right f1 f2) h2]

theorem back_wordlist {t : Tree} {ts : List Tree} (h : Back 0 t) (hm : BackMore ts) (rest : List Token) :
    ∃ f, pWordlist f (lpTok :: (Tree.toksList (t :: ts) ++ rpTok :: rest)) = some (t :: ts, rest) := by
  obtain ⟨f1, h1⟩ := back_item h ts rest
  obtain ⟨f2, h2⟩ := hm rest
  refine ⟨max f1 f2 + 1, ?_⟩
  rw [Tree.toksList, List.append_assoc, pWordlist, if_pos (by rfl), pExpr_mono (Nat.le_max_left f1 f2) h1]
  simp only
  rw [pMore_mono (Nat.le_max_right f1 f2) h2]

theorem pPrimary_fieldOp {f : Nat} {t u : Token} {us : List Token} (ht : t.kind = .field)
    (hu : isNumKind u.kind = false) : pPrimary (f + 1) (t :: u :: us) = pAfterField f t (u :: us) := by
  rw [pPrimary_field _ _ _ ht]
  match us with
  | [] => simp [fieldTail, hu]
  | [a] => simp [fieldTail, hu]
  | a :: b :: cs => simp [fieldTail, hu]

theorem omitted_eq {op : CmpOp} {l : Tree} (h : l.isOmitted op = true) : l = .types (cmpTok op) true := by
  cases l with
  | types t e =>
    cases e with
    | true =>
      simp only [Tree.isOmitted, beq_iff_eq] at h
      rw [h]
    | false => cases h
  | _ => cases h

mutual
theorem back_tree : (t : Tree) → (p : Nat) → Tree.WF p t = true → Back p t
  | .paren t, p, h => by
    rw [Tree.WF] at h
    have ih := back_tree t 0 h
    refine back_prim fun rest _ _ => ?_
    obtain ⟨f, hf⟩ := back_whole ih (followOk_rp rest) (stays_rp _ _) (stops_rp _ _)
    refine ⟨f + 1, ?_⟩
    rw [Tree.toks, show lpTok :: (t.toks ++ [rpTok]) ++ rest = lpTok :: (t.toks ++ rpTok :: rest) by simp]
    rw [pPrimary_cons, show lpTok.kind = .lparen from rfl]
    simp only [hf]
    rfl
  | .not_ t, p, h => by
    rw [Tree.WF] at h
    have ih := back_tree t 15 h
    refine back_prim fun rest hfo hs => ?_
    obtain ⟨f, hf⟩ := back_whole (rest := rest) ih hfo (fun u us b e hb => hs u us b e hb) (stops_15 _)
    refine ⟨f + 1, ?_⟩
    rw [Tree.toks, List.cons_append, pPrimary_cons, show notTok.kind = .kNot from rfl]
    simp only [hf]
  | .neg t, p, h => by
    rw [Tree.WF] at h
    have ih := back_tree t 13 h
    refine back_prim fun rest hfo hs => ?_
    have hc : ∀ u us b, rest = u :: us → binTok u.kind = some b → b.prec < 13 ∧ t.canFollow b.prec = true := by
      intro u us b e hb
      have := hs u us b e hb
      simpa [Tree.canFollow] using this
    obtain ⟨f, hf⟩ := back_whole (rest := rest) ih hfo (fun u us b e hb => (hc u us b e hb).2)
      (fun u us b e hb => (hc u us b e hb).1)
    refine ⟨f + 1, ?_⟩
    rw [Tree.toks, List.cons_append, pPrimary_cons, show (arithTok .sub).kind = .arith .sub from rfl]
    simp only [hf]
  | .cmp op l r, p, h => by
    simp only [Tree.WF, Bool.and_eq_true, Bool.or_eq_true, decide_eq_true_eq] at h
    have ihr := back_tree r 15 h.2.2
    intro rest g res hfo hs hg
    have hc : ∀ u us b, rest = u :: us → binTok u.kind = some b → b.prec < 15 ∧ r.canFollow b.prec = true := by
      intro u us b e hb
      have := hs u us b e hb
      simpa [Tree.canFollow] using this
    rcases h.2.1 with ho | hl
    · rw [omitted_eq ho] at hg ⊢
      have e : (Tree.cmp op (.types (cmpTok op) true) r).toks ++ rest = cmpTok op :: (r.toks ++ rest) := by
        simp [Tree.toks]
      rw [e]
      exact back_omitted h.1 ihr hfo (fun u us b e hb => (hc u us b e hb).2) hg
    · have ihl := back_tree l p hl.1
      rw [Tree.toks]
      exact back_bin (b := .cmp op) h.1 ihl hl.2 ihr hfo (fun u us b e hb => (hc u us b e hb).2)
        (fun u us b e hb => (hc u us b e hb).1) hg
  | .arith op l r, p, h => by
    simp only [Tree.WF, Bool.and_eq_true, decide_eq_true_eq] at h
    have ihl := back_tree l p h.2.1
    have ihr := back_tree r _ h.2.2.2
    intro rest g res hfo hs hg
    have hc : ∀ u us b, rest = u :: us → binTok u.kind = some b →
        b.prec < (BinTok.arith op).prec + 1 ∧ r.canFollow b.prec = true := by
      intro u us b e hb
      have := hs u us b e hb
      simpa [Tree.canFollow] using this
    rw [Tree.toks]
    exact back_bin (b := .arith op) h.1 ihl h.2.2.1 ihr hfo (fun u us b e hb => (hc u us b e hb).2)
      (fun u us b e hb => (hc u us b e hb).1) hg
  | .bin c l r, p, h => by
    simp only [Tree.WF, Bool.and_eq_true, decide_eq_true_eq] at h
    have ihl := back_tree l p h.2.1
    have ihr := back_tree r _ h.2.2.2
    intro rest g res hfo hs hg
    have hc : ∀ u us b, rest = u :: us → binTok u.kind = some b → b.prec < 6 ∧ r.canFollow b.prec = true := by
      intro u us b e hb
      have := hs u us b e hb
      simpa [Tree.canFollow] using this
    rw [Tree.toks]
    exact back_bin (b := .conn c) h.1 ihl h.2.2.1 ihr hfo (fun u us b e hb => (hc u us b e hb).2)
      (fun u us b e hb => (hc u us b e hb).1) hg
  | .types t empty, p, h => by
    simp only [Tree.WF, Bool.and_eq_true, Bool.or_eq_true, Bool.not_eq_true', beq_iff_eq] at h
    obtain ⟨rfl, h⟩ := h
    refine back_prim fun rest hfo _ => ?_
    rw [Tree.toks]
    simp only [Bool.false_eq_true, if_false, List.cons_append, List.nil_append]
    rcases h with h | h
    · refine ⟨1, ?_⟩
      rw [pPrimary_cons]
      cases hk : t.kind <;> simp [hk, isLitKind] at h <;> rfl
    · exact ⟨2, by rw [pPrimary_field _ _ _ h]; exact follow_field hfo t⟩
  | .to_ f lo hi, p, h => by
    simp only [Tree.WF, Bool.and_eq_true, beq_iff_eq] at h
    refine back_prim fun rest _ _ => ?_
    refine ⟨2, ?_⟩
    rw [Tree.toks]
    simp only [List.cons_append, List.nil_append]
    rw [pPrimary_field _ _ _ h.1]
    simp only [fieldTail, h.2.1, if_true]
    rw [if_pos ⟨rfl, h.2.2⟩]
  | .func g items, p, h => by
    simp only [Tree.WF, Bool.and_eq_true] at h
    refine back_prim fun rest _ _ => ?_
    cases items with
    | nil => simp at h
    | cons t ts =>
      rw [Tree.WFs, Bool.and_eq_true] at h
      obtain ⟨f, hf⟩ := back_wordlist (back_tree t 0 h.2.1) (back_more ts h.2.2) rest
      refine ⟨f + 1, ?_⟩
      rw [Tree.toks]
      rw [show fnTok g :: lpTok :: (Tree.toksList (t :: ts) ++ [rpTok]) ++ rest
        = fnTok g :: lpTok :: (Tree.toksList (t :: ts) ++ rpTok :: rest) by simp]
      rw [pPrimary_cons, show (fnTok g).kind = .fn g from rfl]
      simp only [hf]
  | .in_ fl ng items, p, h => by
    simp only [Tree.WF, Bool.and_eq_true, beq_iff_eq] at h
    refine back_prim fun rest _ _ => ?_
    cases items with
    | nil => simp at h
    | cons t ts =>
      rw [Tree.WFs, Bool.and_eq_true] at h
      obtain ⟨f, hf⟩ := back_wordlist (back_tree t 0 h.2.2.1) (back_more ts h.2.2.2) rest
      refine ⟨f + 2, ?_⟩
      rw [Tree.toks]
      cases ng with
      | false =>
        rw [show fl :: ((if false = true then [notTok] else []) ++ inTok :: lpTok :: (Tree.toksList (t :: ts) ++ [rpTok])) ++ rest
          = fl :: inTok :: lpTok :: (Tree.toksList (t :: ts) ++ rpTok :: rest) by simp]
        rw [pPrimary_fieldOp h.1 rfl, pAfterField_cons, show inTok.kind = .kIn from rfl]
        simp only [hf]
      | true =>
        rw [show fl :: ((if true = true then [notTok] else []) ++ inTok :: lpTok :: (Tree.toksList (t :: ts) ++ [rpTok])) ++ rest
          = fl :: notTok :: inTok :: lpTok :: (Tree.toksList (t :: ts) ++ rpTok :: rest) by simp]
        rw [pPrimary_fieldOp h.1 rfl, pAfterField_cons, show notTok.kind = .kNot from rfl]
        simp only [hf]
        rfl
  | .array fl op items, p, h => by
    simp only [Tree.WF, Bool.and_eq_true, beq_iff_eq] at h
    refine back_prim fun rest _ _ => ?_
    cases items with
    | nil => simp at h
    | cons t ts =>
      rw [Tree.WFs, Bool.and_eq_true] at h
      obtain ⟨f, hf⟩ := back_wordlist (back_tree t 0 h.2.2.1) (back_more ts h.2.2.2) rest
      refine ⟨f + 2, ?_⟩
      rw [Tree.toks]
      rw [show fl :: arrTok op :: lpTok :: (Tree.toksList (t :: ts) ++ [rpTok]) ++ rest
          = fl :: arrTok op :: lpTok :: (Tree.toksList (t :: ts) ++ rpTok :: rest) by simp]
      cases op with
      | containsAll =>
        rw [pPrimary_fieldOp h.1 rfl, pAfterField_cons, show (arrTok .containsAll).kind = .cAll from rfl]
        simp only [hf]
      | containsAny =>
        rw [pPrimary_fieldOp h.1 rfl, pAfterField_cons, show (arrTok .containsAny).kind = .cAny from rfl]
        simp only [hf]
theorem back_more : (ts : List Tree) → Tree.WFs ts = true → BackMore ts
  | [], _ => backMore_nil
  | t :: ts, h => by
    rw [Tree.WFs, Bool.and_eq_true] at h
    exact backMore_cons (back_tree t 0 h.1) (back_more ts h.2)
end

/-- The tokens of a well-grouped tree are read back as that tree. -/
theorem parse_toks {t : Tree} (h : Tree.WF 0 t = true) : parseTokens t.toks = some t := by
  obtain ⟨f, hf⟩ := back_whole (rest := []) (back_tree t 0 h) rfl
    (fun _ _ _ e _ => by cases e) (fun _ _ _ e _ => by cases e)
  rw [List.append_nil] at hf
  exact parseTokens_of hf

end BoolParser
