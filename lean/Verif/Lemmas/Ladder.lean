import Verif.Lemmas.Fragment
import Verif.Spec.Ladder
/-!
# Printing and reading back
-/

namespace BoolParser
open Spec

theorem Spec.Lit.token_eq (l : Lit) : l.token = l.tok := by
  cases l with
  | bool b => cases b <;> rfl
  | _ => rfl

theorem prints_wrap {p : Nat} {e : Expr} (h : ∀ q, q ≤ e.level → Prints q e e.print) :
    Prints p e (Expr.wrap (e.level < p) e.print) := by
  rw [Expr.wrap]
  by_cases hl : e.level < p
  · rw [if_pos (by simpa using hl)]; exact .paren (h 0 (Nat.zero_le _))
  · rw [if_neg (by simpa using hl)]; exact h p (by omega)

mutual
theorem prints_print : (e : Expr) → ∀ p, p ≤ e.level → Prints p e e.print
  | .field f, p, _ => by rw [Expr.print]; exact .field
  | .lit l, p, _ => by rw [Expr.print]; exact .lit
  | .cmp o l r, p, h => by
    rw [Expr.print]; exact .cmp h (prints_wrap (prints_print l)) (prints_wrap (prints_print r))
  | .neg e, p, h => by rw [Expr.print]; exact .neg h (prints_wrap (prints_print e))
  | .arith o l r, p, h => by
    rw [Expr.print]; exact .arith h (prints_wrap (prints_print l)) (prints_wrap (prints_print r))
  | .conn b l r, p, h => by
    rw [Expr.print]; exact .conn h (prints_wrap (prints_print l)) (prints_wrap (prints_print r))
  | .not e, p, h => by rw [Expr.print]; exact .not h (prints_wrap (prints_print e))
  | .call f args, p, _ => by rw [Expr.print]; exact .call (prints_args args)
  | .range f lo hi, p, _ => by rw [Expr.print]; exact .range
  | .isIn f ng items, p, _ => by rw [Expr.print]; exact .isIn (prints_args items)
  | .contains f o items, p, _ => by rw [Expr.print]; exact .contains (prints_args items)
theorem prints_args : (es : List Expr) → PrintsArgs es (Expr.printArgs es)
  | [] => by rw [Expr.printArgs]; exact .nil
  | e :: es => by rw [Expr.printArgs]; exact .cons (prints_print e 0 (Nat.zero_le _)) (prints_more es)
theorem prints_more : (es : List Expr) → PrintsMore es (Expr.printMore es)
  | [] => by rw [Expr.printMore]; exact .nil
  | e :: es => by rw [Expr.printMore]; exact .cons (prints_print e 0 (Nat.zero_le _)) (prints_more es)
end

/-- A tree that reads as `e` at level `p` and writes `ls`. -/
structure Reads (p : Nat) (e : Expr) (ls : List JStr) (t : Tree) : Prop where
  wf : ∀ q, q ≤ p → Tree.WF q t = true
  text : t.toks.map Token.text = ls
  shape : noParens t = e.tree
  follow : ∀ q, q ≤ p → q ≠ 13 → q < 15 → t.canFollow q = true
  valid : ∀ u ∈ t.toks, ValidTok u

structure ReadsArgs (es : List Expr) (ls ms : List JStr) (ts : List Tree) : Prop where
  wf : Tree.WFs ts = true
  text : (Tree.toksList ts).map Token.text = ls
  more : (Tree.toksMore ts).map Token.text = ms
  shape : noParensAll ts = Expr.trees es
  valid : ∀ u ∈ Tree.toksList ts, ValidTok u
  validMore : ∀ u ∈ Tree.toksMore ts, ValidTok u
  ne : es ≠ [] → ts.isEmpty = false

theorem strength_eq (o : ArithOp) : (BinTok.arith o).prec = strength o := by cases o <;> rfl
theorem strength_bounds (o : ArithOp) : 7 ≤ strength o ∧ strength o ≤ 12 := by cases o <;> decide


theorem kind_num {l : Lit} (h : l.isNumber = true) : isNumKind l.token.kind = true := by
  cases l <;> first | rfl | cases h

theorem kind_lit (l : Lit) : (isLitKind l.token.kind || l.token.kind == .field) = true := by
  cases l with
  | bool b => cases b <;> rfl
  | _ => rfl

theorem token_valid {l : Lit} (h : l.Valid) : ValidTok l.token := by rw [l.token_eq]; exact Lit.tok_valid h

mutual
theorem prints_reads : {p : Nat} → {e : Expr} → {ls : List JStr} → Prints p e ls → e.Valid → ∃ t, Reads p e ls t
  | p, e, _, .paren h, hv => by
    obtain ⟨t, ht⟩ := prints_reads h hv
    refine ⟨.paren t, ?_, ?_, ?_, ?_, ?_⟩
    · intro q _; rw [Tree.WF]; exact ht.wf 0 (Nat.le_refl _)
    · rw [Tree.toks, List.map_cons, List.map_append, ht.text]; rfl
    · rw [noParens]; exact ht.shape
    · intro q _ _ _; rfl
    · rw [Tree.toks]; exact all_cons valid_lparen (all_app ht.valid (all_cons valid_rparen all_nil'))
  | p, .field f, _, .field, hv => by
    refine ⟨.types (nameTok f) false, fun _ _ => rfl, rfl, rfl, fun _ _ _ _ => rfl, ?_⟩
    rw [Tree.toks]; exact all_cons (valid_name hv) all_nil'
  | p, .lit l, _, .lit, hv => by
    refine ⟨.types l.token false, fun _ _ => ?_, rfl, rfl, fun _ _ _ _ => rfl, ?_⟩
    · rw [Tree.WF, kind_lit]; rfl
    · rw [Tree.toks]; exact all_cons (token_valid hv) all_nil'
  | p, .cmp o l r, _, .cmp hp hl hr, hv => by
    rw [Expr.Valid] at hv
    obtain ⟨t, ht⟩ := prints_reads hl hv.1
    obtain ⟨u, hu⟩ := prints_reads hr hv.2
    refine ⟨.cmp o t u, ?_, ?_, ?_, ?_, ?_⟩
    · intro q hq
      rw [Tree.WF, ht.wf q (by omega), ht.follow 14 (Nat.le_refl _) (by decide) (by decide), hu.wf 15 (Nat.le_refl _)]
      simp; omega
    · rw [Tree.toks, List.map_append, List.map_cons, ht.text, hu.text]; rfl
    · rw [noParens, ht.shape, hu.shape, Expr.tree]
    · intro q h1 h2 h3
      rw [Tree.canFollow, hu.follow q (by omega) h2 h3]; simpa using h3
    · rw [Tree.toks]; exact all_app ht.valid (all_cons (valid_cmp o) hu.valid)
  | p, .neg e, _, .neg hp h, hv => by
    rw [Expr.Valid] at hv
    obtain ⟨t, ht⟩ := prints_reads h hv
    refine ⟨.neg t, ?_, ?_, ?_, ?_, ?_⟩
    · intro q hq; rw [Tree.WF]; exact ht.wf 13 (Nat.le_refl _)
    · rw [Tree.toks, List.map_cons, ht.text]; rfl
    · rw [noParens, ht.shape, Expr.tree]
    · intro q h1 h2 h3
      rw [Tree.canFollow, ht.follow q (by omega) h2 h3]
      simp; omega
    · rw [Tree.toks]; exact all_cons (valid_arith .sub) ht.valid
  | p, .arith o l r, _, .arith hp hl hr, hv => by
    rw [Expr.Valid] at hv
    obtain ⟨t, ht⟩ := prints_reads hl hv.1
    obtain ⟨u, hu⟩ := prints_reads hr hv.2
    have hb := strength_bounds o
    refine ⟨.arith o t u, ?_, ?_, ?_, ?_, ?_⟩
    · intro q hq
      rw [Tree.WF, strength_eq, ht.wf q (by omega), ht.follow _ (Nat.le_refl _) (by omega) (by omega),
        hu.wf _ (Nat.le_refl _)]
      simp; omega
    · rw [Tree.toks, List.map_append, List.map_cons, ht.text, hu.text]; rfl
    · rw [noParens, ht.shape, hu.shape, Expr.tree]
    · intro q h1 h2 h3
      rw [Tree.canFollow, strength_eq, hu.follow q (by omega) h2 h3]; simp; omega
    · rw [Tree.toks]; exact all_app ht.valid (all_cons (valid_arith o) hu.valid)
  | p, .conn b l r, _, .conn hp hl hr, hv => by
    rw [Expr.Valid] at hv
    obtain ⟨t, ht⟩ := prints_reads hl hv.1
    obtain ⟨u, hu⟩ := prints_reads hr hv.2
    refine ⟨.bin b t u, ?_, ?_, ?_, ?_, ?_⟩
    · intro q hq
      rw [Tree.WF, ht.wf q (by omega), ht.follow 5 (Nat.le_refl _) (by decide) (by decide), hu.wf 6 (Nat.le_refl _)]
      simp; omega
    · rw [Tree.toks, List.map_append, List.map_cons, ht.text, hu.text]; rfl
    · rw [noParens, ht.shape, hu.shape, Expr.tree]
    · intro q h1 h2 h3
      rw [Tree.canFollow, hu.follow q (by omega) h2 h3]; simp; omega
    · rw [Tree.toks]; exact all_app ht.valid (all_cons (valid_conn b) hu.valid)
  | p, .not e, _, .not hp h, hv => by
    rw [Expr.Valid] at hv
    obtain ⟨t, ht⟩ := prints_reads h hv
    refine ⟨.not_ t, ?_, ?_, ?_, ?_, ?_⟩
    · intro q hq; rw [Tree.WF]; exact ht.wf 15 (Nat.le_refl _)
    · rw [Tree.toks, List.map_cons, ht.text]; rfl
    · rw [noParens, ht.shape, Expr.tree]
    · intro q h1 h2 h3
      rw [Tree.canFollow]; exact ht.follow q (by omega) h2 h3
    · rw [Tree.toks]; exact all_cons valid_not ht.valid
  | p, .call f args, _, .call h, hv => by
    rw [Expr.Valid] at hv
    obtain ⟨ms, ts, ht⟩ := args_reads h hv.2
    refine ⟨.func f ts, ?_, ?_, ?_, fun _ _ _ _ => rfl, ?_⟩
    · intro q hq; rw [Tree.WF, ht.wf, ht.ne hv.1]; rfl
    · rw [Tree.toks, List.map_cons, List.map_cons, List.map_append, ht.text]; rfl
    · rw [noParens, ht.shape, Expr.tree]
    · rw [Tree.toks]
      exact all_cons (valid_fn f) (all_cons valid_lparen (all_app ht.valid (all_cons valid_rparen all_nil')))
  | p, .range f lo hi, _, .range, hv => by
    rw [Expr.Valid] at hv
    refine ⟨.to_ (nameTok f) lo.token hi.token, fun q _ => ?_, rfl, ?_, fun _ _ _ _ => rfl, ?_⟩
    · rw [Tree.WF, kind_num hv.2.1.2, kind_num hv.2.2.2]; rfl
    · rw [noParens, Expr.tree]
    · rw [Tree.toks]
      exact all_cons (valid_name hv.1) (all_cons (token_valid hv.2.1.1) (all_cons valid_to
        (all_cons (token_valid hv.2.2.1) all_nil')))
  | p, .isIn f ng items, _, .isIn h, hv => by
    rw [Expr.Valid] at hv
    obtain ⟨ms, ts, ht⟩ := args_reads h hv.2.2
    refine ⟨.in_ (nameTok f) ng ts, ?_, ?_, ?_, fun _ _ _ _ => rfl, ?_⟩
    · intro q hq; rw [Tree.WF, ht.wf, ht.ne hv.2.1]; rfl
    · rw [Tree.toks, List.map_cons, List.map_append, List.map_cons, List.map_cons, List.map_append, ht.text]
      cases ng <;> rfl
    · rw [noParens, ht.shape, Expr.tree]
    · rw [Tree.toks]
      refine all_cons (valid_name hv.1) (all_app ?_ (all_cons valid_in (all_cons valid_lparen
        (all_app ht.valid (all_cons valid_rparen all_nil')))))
      cases ng
      · exact all_nil'
      · exact all_cons valid_not all_nil'
  | p, .contains f o items, _, .contains h, hv => by
    rw [Expr.Valid] at hv
    obtain ⟨ms, ts, ht⟩ := args_reads h hv.2.2
    refine ⟨.array (nameTok f) o ts, ?_, ?_, ?_, fun _ _ _ _ => rfl, ?_⟩
    · intro q hq; rw [Tree.WF, ht.wf, ht.ne hv.2.1]; rfl
    · rw [Tree.toks, List.map_cons, List.map_cons, List.map_cons, List.map_append, ht.text]; rfl
    · rw [noParens, ht.shape, Expr.tree]
    · rw [Tree.toks]
      exact all_cons (valid_name hv.1) (all_cons (valid_arr o) (all_cons valid_lparen
        (all_app ht.valid (all_cons valid_rparen all_nil'))))
theorem args_reads : {es : List Expr} → {ls : List JStr} → PrintsArgs es ls → Expr.AllValid es →
    ∃ ms ts, ReadsArgs es ls ms ts
  | _, _, .nil, _ => ⟨[], [], rfl, rfl, rfl, rfl, all_nil', all_nil', fun h => absurd rfl h⟩
  | _, _, .cons h hm, hv => by
    rw [Expr.AllValid] at hv
    obtain ⟨t, ht⟩ := prints_reads h hv.1
    obtain ⟨ls', ts, hts⟩ := more_reads hm hv.2
    refine ⟨_, t :: ts, ?_, ?_, rfl, ?_, ?_, ?_, fun _ => rfl⟩
    · rw [Tree.WFs, ht.wf 0 (Nat.le_refl _), hts.wf]; rfl
    · rw [Tree.toksList, List.map_append, ht.text, hts.more]
    · rw [noParensAll, ht.shape, hts.shape, Expr.trees]
    · rw [Tree.toksList]; exact all_app ht.valid hts.validMore
    · rw [Tree.toksMore]; exact all_cons valid_comma (all_app ht.valid hts.validMore)
theorem more_reads : {es : List Expr} → {ms : List JStr} → PrintsMore es ms → Expr.AllValid es →
    ∃ ls ts, ReadsArgs es ls ms ts
  | _, _, .nil, _ => ⟨[], [], rfl, rfl, rfl, rfl, all_nil', all_nil', fun h => absurd rfl h⟩
  | _, _, .cons h hm, hv => by
    rw [Expr.AllValid] at hv
    obtain ⟨t, ht⟩ := prints_reads h hv.1
    obtain ⟨ls', ts, hts⟩ := more_reads hm hv.2
    refine ⟨_, t :: ts, ?_, rfl, ?_, ?_, ?_, ?_, fun _ => rfl⟩
    · rw [Tree.WFs, ht.wf 0 (Nat.le_refl _), hts.wf]; rfl
    · rw [Tree.toksMore, List.map_cons, List.map_append, ht.text, hts.more]; rfl
    · rw [noParensAll, ht.shape, hts.shape, Expr.trees]
    · rw [Tree.toksList]; exact all_app ht.valid hts.validMore
    · rw [Tree.toksMore]; exact all_cons valid_comma (all_app ht.valid hts.validMore)
end

/-! ### Nodes of arithmetic expressions -/

theorem tokType_lit {l : Lit} (h : l.Valid) : tokType l.tok = l.type := by
  cases l with
  | int ds =>
    have : tokType (Lit.int ds).tok = numericType ds := rfl
    rw [this, numericType_digits h.1, Lit.type]
  | bool b => cases b <;> rfl
  | _ => rfl

mutual
theorem arith_node (df : Option JStr) : (e : Arith) → e.Valid → nodeOf df e.tree = e.node
  | .field f, _ => by rw [Arith.tree, nodeOf_field, Arith.node]
  | .lit l, h => by
    rw [Arith.Valid] at h
    rw [Arith.tree, nodeOf_lit df h, Arith.node, tokType_lit h]
  | .group e, h => by
    rw [Arith.Valid] at h
    rw [Arith.tree, nodeOf, Arith.node, arith_node df e h]
  | .op o l r, h => by
    rw [Arith.Valid] at h
    rw [Arith.tree, nodeOf, Arith.node, arith_node df l h.1, arith_node df r h.2]
  | .neg e, h => by
    rw [Arith.Valid] at h
    rw [Arith.tree, nodeOf, Arith.node, arith_node df e h]
  | .call f args, h => by
    rw [Arith.Valid] at h
    rw [Arith.tree, nodeOf, Arith.node, arith_nodes df args h.2]
theorem arith_nodes (df : Option JStr) : (es : List Arith) → Arith.AllValid es →
    nodesOf df (Arith.trees es) = Arith.nodes es
  | [], _ => rfl
  | e :: es, h => by
    rw [Arith.AllValid] at h
    rw [Arith.trees, nodesOf, Arith.nodes, arith_node df e h.1, arith_nodes df es h.2]
end

/-! ### Minimal parentheses -/

theorem minimal_level (e : Arith) : e.minimal.level = e.level := by cases e <;> rfl
theorem minimal_isAtom (e : Arith) : e.minimal.isAtom = e.isAtom := by cases e <;> rfl

theorem wrap_basic {b : Bool} {e : Arith} (h : e.basic = true) (hb : b = true → e.isAtom = false) :
    (Arith.wrap b e).basic = true := by
  cases b
  · exact h
  · simp [Arith.wrap, Arith.basic, h, hb rfl]

theorem level_atom {e : Arith} {k : Nat} (hk : k ≤ 16) (h : decide (e.level < k) = true) : e.isAtom = false := by
  cases e with
  | field f => exact absurd (of_decide_eq_true h) (Nat.not_lt.mpr hk)
  | lit l => exact absurd (of_decide_eq_true h) (Nat.not_lt.mpr hk)
  | _ => rfl

theorem minimal_basic : (e : Arith) → e.plain = true → e.minimal.basic = true
  | .field _, _ => rfl
  | .lit _, _ => rfl
  | .op o l r, h => by
    rw [Arith.plain, Bool.and_eq_true] at h
    have hb := strength_bounds o
    rw [Arith.minimal, Arith.basic,
      wrap_basic (minimal_basic l h.1) (fun hl => by rw [minimal_isAtom]; exact level_atom (by omega) hl),
      wrap_basic (minimal_basic r h.2) (fun hr => by rw [minimal_isAtom]; exact level_atom (by omega) hr)]
    rfl

theorem wrap_valid {b : Bool} {e : Arith} (h : e.Valid) : (Arith.wrap b e).Valid := by
  cases b
  · exact h
  · exact h

theorem minimal_valid : (e : Arith) → e.Valid → e.minimal.Valid
  | .field _, h => h
  | .lit _, h => h
  | .group _, h => h
  | .op o l r, h => by
    rw [Arith.Valid] at h
    rw [Arith.minimal, Arith.Valid]
    exact ⟨wrap_valid (minimal_valid l h.1), wrap_valid (minimal_valid r h.2)⟩
  | .neg _, h => h
  | .call _ _, h => h

theorem wrap_grouped {b : Bool} {e : Arith} (h : e.Grouped) : (Arith.wrap b e).Grouped := by
  cases b
  · exact h
  · exact h

theorem wrap_level {k : Nat} {e : Arith} (hk : k ≤ 16) : k ≤ (Arith.wrap (decide (e.level < k)) e.minimal).level := by
  by_cases h : e.level < k
  · rw [decide_eq_true h]; exact hk
  · rw [decide_eq_false h, Arith.wrap, if_neg (by simp), minimal_level]; omega

theorem minimal_grouped : (e : Arith) → e.plain = true → e.minimal.Grouped
  | .field _, _ => trivial
  | .lit _, _ => trivial
  | .op o l r, h => by
    rw [Arith.plain, Bool.and_eq_true] at h
    have hb := strength_bounds o
    rw [Arith.minimal, Arith.Grouped]
    exact ⟨wrap_grouped (minimal_grouped l h.1), wrap_grouped (minimal_grouped r h.2), wrap_level (by omega),
      wrap_level (by omega)⟩

theorem minimal_node : (e : Arith) → e.minimal.node = e.node
  | .field _ => rfl
  | .lit _ => rfl
  | .group _ => rfl
  | .op o l r => by
    have hw : ∀ (b : Bool) (e : Arith), (Arith.wrap b e).node = e.node := by intro b e; cases b <;> rfl
    rw [Arith.minimal, Arith.node, Arith.node, hw, hw, minimal_node l, minimal_node r]
  | .neg _ => rfl
  | .call _ _ => rfl

theorem minimal_value (env : Env) (d : Data) : (e : Arith) → e.minimal.value env d = e.value env d
  | .field _ => rfl
  | .lit _ => rfl
  | .group _ => rfl
  | .op o l r => by
    have hw : ∀ (b : Bool) (e : Arith), (Arith.wrap b e).value env d = e.value env d := by
      intro b e
      cases b
      · rfl
      · simp [Arith.wrap, Arith.value]
    rw [Arith.minimal, Arith.value, Arith.value, hw, hw, minimal_value env d l, minimal_value env d r]
  | .neg _ => rfl
  | .call _ _ => rfl

theorem Spec.WritesArith.node {s : JStr} {e : Arith} (h : WritesArith s e) (df : Option JStr) :
    parseExpression s df = .success e.node := by
  have hs := h.renders
  rw [← arith_toks] at hs
  rw [parse_renders (arith_valid e h.valid) (arith_WF e h.valid h.grouped 0 (.inl (Nat.zero_le _)))
    (arith_sup e h.valid .empty false rfl h.readable) (by rw [isAtom_isTypes, h.compound]) hs, arith_node df _ h.valid]

theorem plain_parse {e : Arith} {s : JStr} (hp : e.plain = true) (ha : e.isAtom = false) (hv : e.Valid)
    (hs : Renders e.minimal.lexemes s) (df : Option JStr) : parseExpression s df = .success e.node := by
  rw [← minimal_node]
  exact (abasic_writes (minimal_basic e hp) (by rw [minimal_isAtom]; exact ha) (minimal_valid e hv)
    (minimal_grouped e hp) hs).node df

/-! ### Conditions -/

theorem cminimal_isConn (c : Cond) : c.minimal.isConn = c.isConn := by cases c <;> rfl
theorem cminimal_tight (c : Cond) : c.minimal.tight = c.tight := by cases c <;> rfl

theorem cminimal_basic : (c : Cond) → c.plain = true → c.minimal.basic = true
  | .cmp _ _ _, h => h
  | .not c, h => by
    have ih := cminimal_basic c h
    have hw : ∀ b, (Cond.wrap b c.minimal).basic = true := by intro b; cases b <;> exact ih
    exact hw _
  | .conn b l r, h => by
    rw [Cond.plain, Bool.and_eq_true] at h
    have hl := cminimal_basic l h.1
    have hr := cminimal_basic r h.2
    have hw : ∀ b, (Cond.wrap b r.minimal).basic = true := by intro b; cases b <;> exact hr
    rw [Cond.minimal, Cond.basic, hl, hw]; rfl

theorem cminimal_valid : (c : Cond) → c.plain = true → c.Valid → c.minimal.Valid
  | .cmp _ _ _, _, hv => hv
  | .not c, h, hv => by
    have ih := cminimal_valid c h hv
    have hw : ∀ b, (Cond.wrap b c.minimal).Valid := by intro b; cases b <;> exact ih
    exact hw _
  | .conn b l r, h, hv => by
    rw [Cond.plain, Bool.and_eq_true] at h
    have hr := cminimal_valid r h.2 hv.2
    have hw : ∀ b, (Cond.wrap b r.minimal).Valid := by intro b; cases b <;> exact hr
    exact ⟨cminimal_valid l h.1 hv.1, hw _⟩

theorem atom_level {e : Arith} (h : e.isAtom = true) : e.level = 16 ∧ e.Grouped := by
  cases e <;> first | exact ⟨rfl, trivial⟩ | cases h

theorem cminimal_grouped : (c : Cond) → c.plain = true → c.minimal.Grouped
  | .cmp _ l r, h => by
    rw [Cond.plain, Bool.and_eq_true] at h
    obtain ⟨a1, a2⟩ := atom_level h.1
    obtain ⟨b1, b2⟩ := atom_level h.2
    exact ⟨a2, b2, by omega, by omega⟩
  | .not c, h => by
    have ih := cminimal_grouped c h
    rw [Cond.minimal, Cond.Grouped]
    cases ht : c.tight
    · exact ⟨ih, rfl⟩
    · exact ⟨ih, by rw [Bool.not_true, Cond.wrap, if_neg (by simp), cminimal_tight]; exact ht⟩
  | .conn b l r, h => by
    rw [Cond.plain, Bool.and_eq_true] at h
    have ih := cminimal_grouped r h.2
    refine ⟨cminimal_grouped l h.1, ?_, ?_⟩
    · cases r.isConn <;> exact ih
    · cases hc : r.isConn
      · rw [Cond.wrap, if_neg (by simp), cminimal_isConn]; exact hc
      · rfl

theorem cminimal_meaning (env : Env) (d : Data) (df : Option JStr) : (c : Cond) →
    c.minimal.meaning env d df = c.meaning env d df
  | .not c => by
    have hw : ∀ b, (Cond.wrap b c.minimal).meaning env d df = c.meaning env d df := by
      intro b
      cases b
      · exact cminimal_meaning env d df c
      · simp only [Cond.wrap, if_true, Cond.meaning]; exact cminimal_meaning env d df c
    rw [Cond.minimal, Cond.meaning, Cond.meaning, hw]
  | .conn b l r => by
    have hw : ∀ b, (Cond.wrap b r.minimal).meaning env d df = r.meaning env d df := by
      intro b
      cases b
      · exact cminimal_meaning env d df r
      · simp only [Cond.wrap, if_true, Cond.meaning]; exact cminimal_meaning env d df r
    rw [Cond.minimal, Cond.meaning, Cond.meaning, hw, cminimal_meaning env d df l]
  | .cmp _ _ _ | .cmpD _ _ | .isNull _ _ | .range _ _ _ | .isIn _ _ _ | .contains _ _ _ | .notField _
  | .group _ => rfl

end BoolParser
