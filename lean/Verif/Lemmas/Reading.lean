import Verif.Lemmas.Literals
import Verif.Lemmas.Canon
import Verif.Lemmas.Written
/-!
# Expressions as trees: their tokens, their grouping, and what the listener supports
-/

namespace BoolParser
open Spec

def fieldTok (f : JStr) : Token := ⟨.field, f⟩

namespace Spec

mutual
/-- The tree of an arithmetic expression. -/
def Arith.tree : Arith → Tree
  | .field f => .types (fieldTok f) false
  | .lit l => .types l.tok false
  | .group e => .paren e.tree
  | .op o l r => .arith o l.tree r.tree
  | .neg e => .neg e.tree
  | .call f args => .func f (Arith.trees args)
def Arith.trees : List Arith → List Tree
  | [] => []
  | e :: es => e.tree :: Arith.trees es
end

/-- The tree of a condition. -/
def Cond.tree : Cond → Tree
  | .cmp o l r => .cmp o l.tree r.tree
  | .cmpD o r => .cmp o (.types (cmpTok o) true) r.tree
  | .isNull f eq => .cmp (if eq then .eq else .ne) (.types (fieldTok f) false) (.types (fieldTok j!"null") false)
  | .range f lo hi => .to_ (fieldTok f) lo.tok hi.tok
  | .isIn f neg items => .in_ (fieldTok f) neg (Arith.trees items)
  | .contains f o items => .array (fieldTok f) o (Arith.trees items)
  | .notField f => .not_ (.types (fieldTok f) false)
  | .not c => .not_ c.tree
  | .group c => .paren c.tree
  | .conn conj l r => .bin conj l.tree r.tree

end Spec

/-! ### Tokens -/

mutual
theorem arith_toks : (e : Arith) → e.tree.toks.map Token.text = e.lexemes
  | .field f => rfl
  | .lit l => by
    rw [Arith.tree, Tree.toks, Arith.lexemes]; simp [l.tok_text]
  | .group e => by
    rw [Arith.tree, Tree.toks, Arith.lexemes, List.map_cons, List.map_append, arith_toks e]; rfl
  | .op o l r => by
    rw [Arith.tree, Tree.toks, Arith.lexemes, List.map_append, List.map_cons, arith_toks l, arith_toks r]; rfl
  | .neg e => by
    rw [Arith.tree, Tree.toks, Arith.lexemes, List.map_cons, arith_toks e]; rfl
  | .call f args => by
    rw [Arith.tree, Tree.toks, Arith.lexemes, List.map_cons, List.map_cons, List.map_append, args_toks args]; rfl
theorem args_toks : (es : List Arith) → (Tree.toksList (Arith.trees es)).map Token.text = Arith.argLexemes es
  | [] => rfl
  | e :: es => by
    rw [Arith.trees, Tree.toksList, Arith.argLexemes, List.map_append, arith_toks e, more_toks es]
theorem more_toks : (es : List Arith) → (Tree.toksMore (Arith.trees es)).map Token.text = Arith.moreLexemes es
  | [] => rfl
  | e :: es => by
    rw [Arith.trees, Tree.toksMore, Arith.moreLexemes, List.map_cons, List.map_append, arith_toks e, more_toks es]; rfl
end

theorem cond_toks : (c : Cond) → c.tree.toks.map Token.text = c.lexemes
  | .cmp o l r => by
    rw [Cond.tree, Tree.toks, Cond.lexemes, List.map_append, List.map_cons, arith_toks l, arith_toks r]; rfl
  | .cmpD o r => by
    rw [Cond.tree, Tree.toks, Cond.lexemes, List.map_append, List.map_cons, arith_toks r]; rfl
  | .isNull f eq => by cases eq <;> rfl
  | .range f lo hi => by
    rw [Cond.tree, Tree.toks, Cond.lexemes]
    simp [lo.tok_text, hi.tok_text, fieldTok, toTok]
  | .isIn f neg items => by
    rw [Cond.tree, Tree.toks, Cond.lexemes, List.map_cons, List.map_append, List.map_cons, List.map_cons,
      List.map_append, args_toks items]
    cases neg <;> rfl
  | .contains f o items => by
    rw [Cond.tree, Tree.toks, Cond.lexemes, List.map_cons, List.map_cons, List.map_cons,
      List.map_append, args_toks items]
    rfl
  | .notField f => rfl
  | .not c => by rw [Cond.tree, Tree.toks, Cond.lexemes, List.map_cons, cond_toks c]; rfl
  | .group c => by
    rw [Cond.tree, Tree.toks, Cond.lexemes, List.map_cons, List.map_append, cond_toks c]; rfl
  | .conn conj l r => by
    rw [Cond.tree, Tree.toks, Cond.lexemes, List.map_append, List.map_cons, cond_toks l, cond_toks r]; rfl

theorem valid_cmp (o : CmpOp) : ValidTok (cmpTok o) := by cases o <;> exact valid_of_best (by krfl)
theorem valid_arith (o : ArithOp) : ValidTok (arithTok o) := by cases o <;> exact valid_of_best (by krfl)
theorem valid_conn (c : Bool) : ValidTok (connTok c) := by cases c <;> exact valid_of_best (by krfl)
theorem valid_fn (f : FuncType) : ValidTok (fnTok f) := by cases f <;> exact valid_of_best (by krfl)
theorem valid_arr (o : ArrOp) : ValidTok (arrTok o) := by cases o <;> exact valid_of_best (by krfl)

theorem all_cons {P : Token → Prop} {t : Token} {ts : List Token} (h : P t) (h' : ∀ u ∈ ts, P u) :
    ∀ u ∈ t :: ts, P u := List.forall_mem_cons.mpr ⟨h, h'⟩

theorem all_app {P : Token → Prop} {s t : List Token} (h : ∀ u ∈ s, P u) (h' : ∀ u ∈ t, P u) :
    ∀ u ∈ s ++ t, P u := List.forall_mem_append.mpr ⟨h, h'⟩

theorem all_nil' {P : Token → Prop} : ∀ u ∈ ([] : List Token), P u := by simp

/-- Valid and in canonical spelling. -/
def Good (u : Token) : Prop := ValidTok u ∧ canon u = u

theorem good_lparen : Good lpTok := ⟨valid_lparen, rfl⟩
theorem good_rparen : Good rpTok := ⟨valid_rparen, rfl⟩
theorem good_comma : Good commaTok := ⟨valid_comma, rfl⟩
theorem good_not : Good notTok := ⟨valid_not, rfl⟩
theorem good_in : Good inTok := ⟨valid_in, rfl⟩
theorem good_to : Good toTok := ⟨valid_to, rfl⟩
theorem good_arith (o : ArithOp) : Good (arithTok o) := ⟨valid_arith o, rfl⟩
theorem good_cmp (o : CmpOp) : Good (cmpTok o) := ⟨valid_cmp o, rfl⟩
theorem good_fn (f : FuncType) : Good (fnTok f) := ⟨valid_fn f, rfl⟩
theorem good_arr (o : ArrOp) : Good (arrTok o) := ⟨valid_arr o, by cases o <;> rfl⟩
theorem good_conn (c : Bool) : Good (connTok c) := ⟨valid_conn c, by cases c <;> rfl⟩
theorem good_name {f : JStr} (h : IsName f) : Good (fieldTok f) := ⟨valid_name h, rfl⟩

theorem Spec.Lit.tok_good (l : Lit) (h : l.Valid) : Good l.tok := by
  refine ⟨l.tok_valid h, ?_⟩
  cases l <;> try rfl
  rename_i b; cases b <;> rfl

mutual
theorem arith_valid : (e : Arith) → e.Valid → ∀ u ∈ e.tree.toks, Good u
  | .field f, h => by
    rw [Arith.Valid] at h
    rw [Arith.tree, Tree.toks]; exact all_cons (good_name h) all_nil'
  | .lit l, h => by
    rw [Arith.Valid] at h
    rw [Arith.tree, Tree.toks]; exact all_cons (l.tok_good h) all_nil'
  | .group e, h => by
    rw [Arith.Valid] at h
    rw [Arith.tree, Tree.toks]
    exact all_cons good_lparen (all_app (arith_valid e h) (all_cons good_rparen all_nil'))
  | .op o l r, h => by
    rw [Arith.Valid] at h
    rw [Arith.tree, Tree.toks]
    exact all_app (arith_valid l h.1) (all_cons (good_arith o) (arith_valid r h.2))
  | .neg e, h => by
    rw [Arith.Valid] at h
    rw [Arith.tree, Tree.toks]
    exact all_cons (good_arith .sub) (arith_valid e h)
  | .call f args, h => by
    rw [Arith.Valid] at h
    rw [Arith.tree, Tree.toks]
    exact all_cons (good_fn f) (all_cons good_lparen (all_app (args_valid args h.2) (all_cons good_rparen all_nil')))
theorem args_valid : (es : List Arith) → Arith.AllValid es → ∀ u ∈ Tree.toksList (Arith.trees es), Good u
  | [], _ => by rw [Arith.trees, Tree.toksList]; exact all_nil'
  | e :: es, h => by
    rw [Arith.AllValid] at h
    rw [Arith.trees, Tree.toksList]
    exact all_app (arith_valid e h.1) (more_valid es h.2)
theorem more_valid : (es : List Arith) → Arith.AllValid es → ∀ u ∈ Tree.toksMore (Arith.trees es), Good u
  | [], _ => by rw [Arith.trees, Tree.toksMore]; exact all_nil'
  | e :: es, h => by
    rw [Arith.AllValid] at h
    rw [Arith.trees, Tree.toksMore]
    exact all_cons good_comma (all_app (arith_valid e h.1) (more_valid es h.2))
end

theorem name_null : IsName j!"null" := by decide

theorem cond_valid : (c : Cond) → c.Valid → ∀ u ∈ c.tree.toks, Good u
  | .cmp o l r, h => by
    rw [Cond.tree, Tree.toks]
    exact all_app (arith_valid l h.1) (all_cons (good_cmp o) (arith_valid r h.2.1))
  | .cmpD o r, h => by
    rw [Cond.tree, Tree.toks]
    exact all_app (by rw [Tree.toks]; exact all_nil') (all_cons (good_cmp o) (arith_valid r h.1))
  | .isNull f eq, h => by
    rw [Cond.tree, Tree.toks, Tree.toks, Tree.toks]
    exact all_app (all_cons (good_name h) all_nil') (all_cons (good_cmp _) (all_cons (good_name name_null) all_nil'))
  | .range f lo hi, h => by
    rw [Cond.tree, Tree.toks]
    exact all_cons (good_name h.1) (all_cons (lo.tok_good h.2.1) (all_cons good_to
      (all_cons (hi.tok_good h.2.2.1) all_nil')))
  | .isIn f neg items, h => by
    rw [Cond.tree, Tree.toks]
    refine all_cons (good_name h.1) (all_app ?_ (all_cons good_in (all_cons good_lparen
      (all_app (args_valid items h.2.2) (all_cons good_rparen all_nil')))))
    cases neg
    · exact all_nil'
    · exact all_cons good_not all_nil'
  | .contains f o items, h => by
    rw [Cond.tree, Tree.toks]
    exact all_cons (good_name h.1) (all_cons (good_arr o) (all_cons good_lparen
      (all_app (args_valid items h.2.2) (all_cons good_rparen all_nil'))))
  | .notField f, h => by
    rw [Cond.tree, Tree.toks, Tree.toks]
    exact all_cons good_not (all_cons (good_name h) all_nil')
  | .not c, h => by
    rw [Cond.tree, Tree.toks]
    exact all_cons good_not (cond_valid c h)
  | .group c, h => by
    rw [Cond.tree, Tree.toks]
    exact all_cons good_lparen (all_app (cond_valid c h) (all_cons good_rparen all_nil'))
  | .conn conj l r, h => by
    rw [Cond.tree, Tree.toks]
    exact all_app (cond_valid l h.1) (all_cons (good_conn conj) (cond_valid r h.2))

/-! ### Grouping -/

theorem strength_prec (o : ArithOp) : strength o = (BinTok.arith o).prec := by cases o <;> rfl

theorem strength_range (o : ArithOp) : 7 ≤ strength o ∧ strength o ≤ 12 := by cases o <;> decide

theorem arith_canFollow : (e : Arith) → e.Grouped → ∀ q, q ≤ e.level → q ≠ 13 → e.tree.canFollow q = true
  | .field f, _, q, _, _ => rfl
  | .lit l, _, q, _, _ => rfl
  | .group e, _, q, _, _ => rfl
  | .op o l r, h, q, hq, hn => by
    rw [Arith.Grouped] at h
    rw [Arith.level] at hq
    rw [Arith.tree, Tree.canFollow, arith_canFollow r h.2.1 q (by omega) hn, ← strength_prec]
    simp; omega
  | .neg e, h, q, hq, hn => by
    rw [Arith.Grouped] at h
    rw [Arith.level] at hq
    rw [Arith.tree, Tree.canFollow, arith_canFollow e h.1 q (by omega) hn]
    simp; omega
  | .call f args, _, q, _, _ => rfl

theorem trees_isEmpty (es : List Arith) (h : es ≠ []) : (Arith.trees es).isEmpty = false := by
  cases es with
  | nil => exact absurd rfl h
  | cons e es => rfl

mutual
theorem arith_WF : (e : Arith) → e.Valid → e.Grouped → ∀ p, (p ≤ e.level ∨ 13 ≤ e.level) →
    Tree.WF p e.tree = true
  | .field f, _, _, p, _ => rfl
  | .lit l, _, _, p, _ => by rw [Arith.tree, Tree.WF, l.tok_kind]; rfl
  | .group e, hv, h, p, _ => by
    rw [Arith.Grouped] at h
    rw [Arith.Valid] at hv
    rw [Arith.tree, Tree.WF]; exact arith_WF e hv h 0 (.inl (Nat.zero_le _))
  | .op o l r, hv, h, p, hp => by
    rw [Arith.Grouped] at h
    rw [Arith.Valid] at hv
    rw [Arith.level] at hp
    have hs := strength_range o
    have hp' : p ≤ strength o := by omega
    rw [Arith.tree, Tree.WF, ← strength_prec, arith_WF l hv.1 h.1 p (by omega),
      arith_canFollow l h.1 _ h.2.2.1 (by omega), arith_WF r hv.2 h.2.1 _ (.inl h.2.2.2)]
    simpa using hp'
  | .neg e, hv, h, p, _ => by
    rw [Arith.Grouped] at h
    rw [Arith.Valid] at hv
    rw [Arith.tree, Tree.WF]; exact arith_WF e hv h.1 _ (.inr h.2)
  | .call f args, hv, h, p, _ => by
    rw [Arith.Grouped] at h
    rw [Arith.Valid] at hv
    rw [Arith.tree, Tree.WF, args_WF args hv.2 h, trees_isEmpty args hv.1]; rfl
theorem args_WF : (es : List Arith) → Arith.AllValid es → Arith.AllGrouped es →
    Tree.WFs (Arith.trees es) = true
  | [], _, _ => rfl
  | e :: es, hv, h => by
    rw [Arith.AllGrouped] at h
    rw [Arith.AllValid] at hv
    rw [Arith.trees, Tree.WFs, arith_WF e hv.1 h.1 0 (.inl (Nat.zero_le _)), args_WF es hv.2 h.2]; rfl
end

theorem cond_canFollow : (c : Cond) → c.Grouped → c.tree.canFollow 5 = true
  | .cmp o l r, h => by
    rw [Cond.tree, Tree.canFollow, arith_canFollow r h.2.1 5 (by have := h.2.2.2; omega) (by decide)]; rfl
  | .cmpD o r, h => by
    rw [Cond.tree, Tree.canFollow, arith_canFollow r h.1 5 (by have := h.2; omega) (by decide)]; rfl
  | .isNull f eq, _ => rfl
  | .range _ _ _, _ => rfl
  | .isIn _ _ _, _ => rfl
  | .contains _ _ _, _ => rfl
  | .notField _, _ => rfl
  | .not c, h => by rw [Cond.tree, Tree.canFollow]; exact cond_canFollow c h.1
  | .group _, _ => rfl
  | .conn _ l r, h => by rw [Cond.tree, Tree.canFollow, cond_canFollow r h.2.1]; rfl

theorem cond_WF : (c : Cond) → c.Valid → c.Grouped → ∀ p,
    (p ≤ 14 ∨ c.tight = true) → (p ≤ 5 ∨ c.isConn = false) → Tree.WF p c.tree = true
  | .cmp o l r, hv, h, p, h1, _ => by
    have hp : p ≤ 14 := by rcases h1 with h1 | h1; exacts [h1, by cases h1]
    obtain ⟨g1, g2, g3, g4⟩ := h
    rw [Cond.tree, Tree.WF, arith_WF l hv.1 g1 p (by omega),
      arith_canFollow l g1 14 (by omega) (by decide), arith_WF r hv.2.1 g2 15 (by omega)]
    simpa using hp
  | .cmpD o r, hv, h, p, h1, _ => by
    have hp : p ≤ 14 := by rcases h1 with h1 | h1; exacts [h1, by cases h1]
    obtain ⟨g2, g4⟩ := h
    rw [Cond.tree, Tree.WF, arith_WF r hv.1 g2 15 (by omega)]
    simpa [Tree.isOmitted] using hp
  | .isNull f eq, _, _, p, h1, _ => by
    have hp : p ≤ 14 := by rcases h1 with h1 | h1; exacts [h1, by cases h1]
    rw [Cond.tree, Tree.WF]
    simpa [Tree.WF, Tree.canFollow, fieldTok] using hp
  | .range f lo hi, hv, _, p, _, _ => by
    rw [Cond.tree, Tree.WF, lo.number_kind hv.2.2.2.1, hi.number_kind hv.2.2.2.2]; rfl
  | .isIn f neg items, hv, h, p, _, _ => by
    rw [Cond.tree, Tree.WF, args_WF items hv.2.2 h, trees_isEmpty items hv.2.1]; rfl
  | .contains f o items, hv, h, p, _, _ => by
    rw [Cond.tree, Tree.WF, args_WF items hv.2.2 h, trees_isEmpty items hv.2.1]; rfl
  | .notField f, _, _, _, _, _ => rfl
  | .not c, hv, h, p, _, _ => by
    rw [Cond.tree, Tree.WF]
    refine cond_WF c hv h.1 15 (.inr h.2) (.inr ?_)
    have := h.2
    cases c <;> first | rfl | cases this
  | .group c, hv, h, p, _, _ => by
    rw [Cond.tree, Tree.WF]
    exact cond_WF c hv h 0 (.inl (by decide)) (.inl (by decide))
  | .conn conj l r, hv, h, p, _, h2 => by
    have hp : p ≤ 5 := by rcases h2 with h2 | h2; exacts [h2, by cases h2]
    rw [Cond.tree, Tree.WF, cond_WF l hv.1 h.1 p (.inl (by omega)) (.inl hp), cond_canFollow l h.1,
      cond_WF r hv.2 h.2.1 6 (.inl (by decide)) (.inr h.2.2)]
    simpa using hp

/-! ### Supported by the listener -/

theorem isAtom_isTypes (e : Arith) : e.tree.isTypes = e.isAtom := by cases e <;> rfl

theorem field_ok (f : JStr) : typesOk (fieldTok f) false = true := rfl

mutual
theorem arg_ok : (e : Arith) → e.Valid → e.simpleArg = true → argOk e.tree = true
  | .field f, _, _ => rfl
  | .lit l, hv, _ => by
    rw [Arith.Valid] at hv
    rw [Arith.tree, argOk, typesOk, l.tokOk hv]; simp
  | .group e, _, h => by simp [Arith.simpleArg] at h
  | .neg e, _, h => by simp [Arith.simpleArg] at h
  | .op o l r, hv, h => by
    rw [Arith.simpleArg, Bool.and_eq_true] at h
    rw [Arith.Valid] at hv
    rw [Arith.tree, argOk, isAtom_isTypes, isAtom_isTypes, h.1, h.2,
      arg_ok l hv.1 (by cases l <;> first | rfl | simp [Arith.isAtom] at h),
      arg_ok r hv.2 (by cases r <;> first | rfl | simp [Arith.isAtom] at h)]
    rfl
  | .call f args, hv, h => by
    rw [Arith.simpleArg] at h
    rw [Arith.Valid] at hv
    rw [Arith.tree, argOk]; exact args_ok args hv.2 h
theorem args_ok : (es : List Arith) → Arith.AllValid es → Arith.simpleArgs es = true →
    argsOk (Arith.trees es) = true
  | [], _, _ => rfl
  | e :: es, hv, h => by
    rw [Arith.simpleArgs, Bool.and_eq_true] at h
    rw [Arith.AllValid] at hv
    rw [Arith.trees, argsOk, arg_ok e hv.1 h.1, args_ok es hv.2 h.2]; rfl
end

theorem cls_arith : (e : Arith) → (e.tree.cls == .arith) = e.isOperation ∧ e.tree.cls ≠ .clean
  | .field f => ⟨rfl, by simp [Arith.tree, Tree.cls]⟩
  | .lit l => ⟨rfl, by simp [Arith.tree, Tree.cls]⟩
  | .group e => by rw [Arith.tree, Tree.cls, Arith.isOperation]; exact cls_arith e
  | .op o l r => ⟨rfl, by simp [Arith.tree, Tree.cls]⟩
  | .neg e => ⟨rfl, by simp [Arith.tree, Tree.cls]⟩
  | .call f args => ⟨rfl, by simp [Arith.tree, Tree.cls]⟩

theorem all_atoms (es : List Arith) : (Arith.trees es).all Tree.isTypes = es.all Arith.isAtom := by
  induction es with
  | nil => rfl
  | cons e es ih => rw [Arith.trees, List.all_cons, List.all_cons, isAtom_isTypes, ih]

theorem arith_lean : (e : Arith) → e.tree.lean = e.tidy
  | .field f => rfl
  | .lit l => rfl
  | .group e => by rw [Arith.tree, Tree.lean, Arith.tidy, arith_lean e]
  | .op o l r => by rw [Arith.tree, Tree.lean, Arith.tidy, arith_lean l, arith_lean r]
  | .neg e => by rw [Arith.tree, Tree.lean, Arith.tidy, arith_lean e]
  | .call f args => by rw [Arith.tree, Tree.lean, Arith.tidy, all_atoms]

theorem arith_sup : (e : Arith) → e.Valid → ∀ (top : Top) (after : Bool), (top == .arith) = after →
    e.readable after = true → Sup top e.tree = true
  | .field f, _, _, _, _, _ => rfl
  | .lit l, hv, _, _, _, _ => by
    rw [Arith.Valid] at hv
    rw [Arith.tree, Sup, typesOk, l.tokOk hv]; simp
  | .group e, hv, top, after, ht, h => by
    rw [Arith.readable, Bool.and_eq_true] at h
    rw [Arith.Valid] at hv
    rw [Arith.tree, Sup, isAtom_isTypes, h.1, arith_sup e hv top after ht h.2]; rfl
  | .op o l r, hv, top, after, ht, h => by
    rw [Arith.readable, Bool.and_eq_true, Bool.and_eq_true] at h
    rw [Arith.Valid] at hv
    rw [Arith.tree, Sup, isAtom_isTypes, isAtom_isTypes, arith_lean, h.2.2,
      arith_sup l hv.1 top after ht h.1, arith_sup r hv.2 _ _ ?_ h.2.1]
    · rfl
    · rw [Tree.after, isAtom_isTypes]
      split
      · exact ht
      · exact (cls_arith l).1
  | .neg e, hv, top, after, ht, h => by
    rw [Arith.readable] at h
    rw [Arith.Valid] at hv
    rw [Arith.tree, Sup, isAtom_isTypes]
    split
    · rename_i ha
      rw [if_pos ha] at h
      rw [arith_sup e hv top after ht (by cases e <;> first | rfl | cases ha)]
      rw [← ht] at h
      simpa using h
    · rename_i ha
      rw [if_neg ha, Bool.and_eq_true] at h
      rw [arith_sup e hv top after ht h.1, (cls_arith e).1, h.2]; rfl
  | .call f args, hv, top, after, ht, h => by
    rw [Arith.readable] at h
    rw [Arith.Valid] at hv
    rw [Arith.tree, Sup]; exact args_ok args hv.2 h

/-- The class of stack top a left neighbour stands for. -/
def topLeft : Cond.Left → Top
  | .nothing => .empty
  | .test => .clean
  | .membership => .other

theorem cond_cls : (c : Cond) → c.tree.cls = topLeft c.asLeft
  | .cmp _ _ _ => rfl
  | .cmpD _ _ => rfl
  | .isNull _ _ => rfl
  | .range _ _ _ => rfl
  | .isIn _ neg _ => by cases neg <;> rfl
  | .contains _ _ _ => rfl
  | .notField _ => rfl
  | .not _ => rfl
  | .group c => by rw [Cond.tree, Tree.cls, Cond.asLeft, cond_cls c]
  | .conn _ _ _ => rfl

theorem cond_isTypes (c : Cond) : c.tree.isTypes = false := by cases c <;> rfl

theorem cond_lean : (c : Cond) → c.tidy = true → c.tree.lean = true
  | .cmp _ l r, h => by
    rw [Cond.tree, Tree.lean, isAtom_isTypes, isAtom_isTypes, arith_lean, arith_lean]; exact h
  | .cmpD _ r, h => by
    rw [Cond.tree, Tree.lean, isAtom_isTypes, arith_lean]
    rw [Cond.tidy] at h
    simpa [Tree.isTypes, Tree.lean] using h
  | .isNull _ _, _ => rfl
  | .range _ _ _, _ => rfl
  | .isIn _ _ items, h => by rw [Cond.tree, Tree.lean, all_atoms]; exact h
  | .contains _ _ items, h => by rw [Cond.tree, Tree.lean, all_atoms]; exact h
  | .notField _, _ => rfl
  | .not c, h => by rw [Cond.tree, Tree.lean]; exact cond_lean c h
  | .group c, h => by rw [Cond.tree, Tree.lean]; exact cond_lean c h
  | .conn _ l r, h => by
    rw [Cond.tidy, Bool.and_eq_true] at h
    rw [Cond.tree, Tree.lean, cond_lean l h.1, cond_lean r h.2]; rfl

theorem topLeft_arith (l : Cond.Left) : (topLeft l == .arith) = false := by cases l <;> rfl

theorem topLeft_ok {l : Cond.Left} (h : (l != .membership) = true) :
    (topLeft l == .empty || topLeft l == .clean) = true := by
  cases l <;> first | rfl | cases h

theorem atom_readable {e : Arith} (h : e.isAtom = true) (a : Bool) : e.readable a = true := by
  cases e <;> first | rfl | cases h

theorem cls_side (e : Arith) : (e.tree.isParen || e.tree.cls != .clean) = true := by
  have := (cls_arith e).2
  simp [this]

theorem field_conv {f : JStr} (h : IsName f) : convertValue f .string = .ok (.str f) := by
  obtain ⟨⟨c, cs, rfl, hc⟩, _, _⟩ := h
  have h1 : c ≠ '\'' := by
    rintro rfl; rcases hc with hc | hc
    · exact absurd hc (by decide)
    · exact absurd hc (by decide)
  have h2 : c ≠ '"' := by
    rintro rfl; rcases hc with hc | hc
    · exact absurd hc (by decide)
    · exact absurd hc (by decide)
  simp [convertValue, h1, h2]

theorem call_simple {e : Arith} {a : Bool} (h : Cond.isCall e = true) (h' : e.readable a = true) :
    e.simpleArg = true := by
  cases e with
  | call f args => rw [Arith.readable] at h'; rw [Arith.simpleArg]; exact h'
  | _ => cases h

theorem cond_sup : (c : Cond) → c.Valid → ∀ left, c.readable left = true → Sup (topLeft left) c.tree = true
  | .cmp o l r, hv, left, h => by
    rw [Cond.readable] at h
    rw [Cond.tree, Sup, isAtom_isTypes, isAtom_isTypes]
    have sl := arith_sup l hv.1 (topLeft left) false (topLeft_arith left)
    have sr := arith_sup r hv.2.1 (topLeft left) false (topLeft_arith left)
    by_cases hl : l.isAtom = true
    · have sl' := sl (atom_readable hl _)
      by_cases hr : r.isAtom = true
      · have sr' := sr (atom_readable hr _)
        rw [if_pos (by rw [hl, hr]; rfl)] at h ⊢
        rw [sl', sr', topLeft_ok h]; rfl
      · rw [if_neg (by rw [hl]; simpa using hr), if_pos hl] at h ⊢
        rw [sl', sr h, cls_side]; rfl
    · by_cases hr : r.isAtom = true
      · have sr' := sr (atom_readable hr _)
        rw [if_neg (by rw [hr]; simpa using hl), if_neg hl, if_pos hr] at h ⊢
        rw [sl h, sr', cls_side]; rfl
      · rw [if_neg (by simp [hl]), if_neg hl, if_neg hr] at h ⊢
        simp only [Bool.and_eq_true] at h
        obtain ⟨h1, h2, h3, h4⟩ := h
        rw [arg_ok l hv.1 (call_simple h1 h3),
          arg_ok r hv.2.1 (call_simple h2 h4)]
        rfl
  | .cmpD o r, hv, left, h => by
    rw [Cond.readable] at h
    rw [Cond.tree, Sup, isAtom_isTypes]
    have sr := arith_sup r hv.1 (topLeft left) false (topLeft_arith left)
    have e : Sup (topLeft left) (.types (cmpTok o) true) = true := by rw [Sup, typesOk]; simp
    by_cases hr : r.isAtom = true
    · have sr' := sr (atom_readable hr _)
      rw [if_pos hr] at h
      rw [if_pos (by rw [hr]; rfl), e, sr', topLeft_ok h]; rfl
    · rw [if_neg hr] at h
      rw [if_neg (by simpa [Tree.isTypes] using hr), if_pos (show (Tree.types (cmpTok o) true).isTypes = true from rfl), e, sr h, cls_side]; rfl
  | .isNull f eq, hv, left, h => by
    rw [Cond.readable] at h
    rw [Cond.tree, Sup]
    simp only [Tree.isTypes, Bool.and_self, if_true]
    rw [topLeft_ok h]; rfl
  | .range f lo hi, hv, left, h => by
    rw [Cond.tree, Sup, lo.tokOk hv.2.1, hi.tokOk hv.2.2.1]; rfl
  | .isIn f neg items, hv, left, h => by rw [Cond.tree, Sup]; exact args_ok items hv.2.2 h
  | .contains f o items, hv, left, h => by rw [Cond.tree, Sup]; exact args_ok items hv.2.2 h
  | .notField f, hv, left, h => by
    rw [Cond.readable] at h
    have : left = .nothing := by simpa using h
    subst this
    rw [Cond.tree, Sup]
    have : tokOk (fieldTok f) = true := by
      rw [tokOk, show convertValue (fieldTok f).text (tokType (fieldTok f)) = .ok (.str f) from field_conv hv]; rfl
    simp [Tree.isTypes, Tree.tokOk, this, topLeft]
  | .not c, hv, left, h => by
    rw [Cond.tree, Sup, cond_isTypes]
    exact cond_sup c hv left h
  | .group c, hv, left, h => by
    rw [Cond.tree, Sup, cond_isTypes, cond_sup c hv left h]; rfl
  | .conn conj l r, hv, left, h => by
    rw [Cond.readable, Bool.and_eq_true, Bool.and_eq_true] at h
    rw [Cond.tree, Sup, cond_isTypes, cond_isTypes, cond_sup l hv.1 left h.1, Tree.after, cond_isTypes, cond_cls,
      if_neg (by decide), cond_sup r hv.2 _ h.2.1, cond_lean r h.2.2]
    rfl

end BoolParser
