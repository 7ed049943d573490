import Verif.Lemmas.VerbatimTexts
import Verif.Lemmas.Checker
/-!
# Texts whose refusal is known exactly (for C102)
-/

namespace BoolParser
open Spec

theorem told_of {α : Type} {x : Told α} {r : Result α} {a : α} (h : untold x = r) (hr : r = .ok a) : x = .ok a := by
  subst hr
  cases x with
  | ok b => exact congrArg _ (Except.ok.inj h)
  | error f => cases h

theorem wf_facts {t : Tree} (h : Tree.WF 0 t = true) : t.Gram ∧ kindsOf t.toks = t.kinds :=
  ⟨parseTokens_gram (parse_toks h), (parseTokens_kinds (parse_toks h)).symm⟩

theorem arith_facts {e : Arith} (hv : e.Valid) (hg : e.Grouped) : e.tree.Gram ∧ kindsOf e.tree.toks = e.tree.kinds :=
  wf_facts (arith_WF e hv hg 0 (.inl (Nat.zero_le _)))

theorem textAt_arith {e : Arith} (hv : e.Valid) (hg : e.Grouped) (post : List Token) :
    e.tree.textAt (e.tree.toks ++ post) = e.lexemes.flatten := by
  obtain ⟨h1, h2⟩ := arith_facts hv hg
  rw [textAt_piece h1 h2, textsOf, arith_toks]

theorem drop_arith {e : Arith} (hv : e.Valid) (hg : e.Grouped) (o : Token) (r : List Token) :
    (e.tree.toks ++ o :: r).drop (e.tree.width + 1) = r := by
  obtain ⟨h1, h2⟩ := arith_facts hv hg
  exact drop_piece h1 h2 o r

/-- Reading a text that is written out: the parser walks over its tree. -/
theorem told_written {t : Tree} {s : JStr} (hv : ∀ u ∈ t.toks, Good u) (hw : Tree.WF 0 t = true)
    (hs : Written (t.toks.map Token.text) s) (df : Option JStr) :
    parseTold s df = (walkX df t t.toks LState.init >>= exitParseX t.toks) := by
  have hl := lex_written (fun u hu => (hv u hu).1) hs
  rw [parseTold_gram (t := t) (by rw [hl]; exact parse_toks hw), hl]

theorem atom_told (df : Option JStr) {e : Arith} (hv : e.Valid) (ha : e.isAtom = true) (ks : List Token) (st : NStack) :
    ∃ n, mapNodeX df e.tree ks st = .ok (n, st) := by
  have h := arg_ok e hv (by cases e <;> first | rfl | cases ha)
  cases e with
  | field f => exact ⟨_, told_of (mapNodeX_same df _ ks st) (by rw [Arith.tree, mapNode, typesOk_map h]; rfl)⟩
  | lit l => exact ⟨_, told_of (mapNodeX_same df _ ks st) (by rw [Arith.tree, mapNode, typesOk_map h]; rfl)⟩
  | _ => cases ha

theorem atom_tree {e : Arith} (ha : e.isAtom = true) (hv : e.Valid) :
    ∃ t, e.tree = .types t false ∧ ∀ df, ∃ n, mapTypes df t false = .ok n := by
  have h := arg_ok e hv (by cases e <;> first | rfl | cases ha)
  cases e with
  | field f => exact ⟨_, rfl, fun df => ⟨_, typesOk_map h⟩⟩
  | lit l => exact ⟨_, rfl, fun df => ⟨_, typesOk_map h⟩⟩
  | _ => cases ha

theorem short_walk (df : Option JStr) {e : Arith} (hv : e.Valid) (h : Brief e) (s : LState) :
    ∃ s', walk df e.tree s = .ok s' := by
  rcases h with ha | ⟨x, hx, rfl | rfl⟩
  · obtain ⟨t, ht, _⟩ := atom_tree ha hv
    rw [ht, walk]; exact ⟨_, rfl⟩
  · rw [Arith.Valid] at hv
    obtain ⟨t, ht, hm⟩ := atom_tree hx hv
    obtain ⟨n, hn⟩ := hm df
    rw [Arith.tree, ht, walk, walk]
    show ∃ s', exitNeg df (.types t false) _ = .ok s'
    unfold exitNeg
    simp only
    split
    · split
      · exact ⟨_, rfl⟩
      · rw [hn]; exact ⟨_, rfl⟩
    · rw [hn]; exact ⟨_, rfl⟩
  · rw [Arith.Valid] at hv
    obtain ⟨t, ht, _⟩ := atom_tree hx hv
    rw [Arith.tree, ht, walk, walk]; exact ⟨_, rfl⟩

theorem short_walks (df : Option JStr) : ∀ {es : List Arith}, Arith.AllValid es → (∀ e ∈ es, Brief e) → ∀ s : LState,
    ∃ s', walkAll df (Arith.trees es) s = .ok s'
  | [], _, _, s => ⟨s, by rw [Arith.trees, walkAll]⟩
  | e :: es, hv, h, s => by
    rw [Arith.AllValid] at hv
    obtain ⟨s1, h1⟩ := short_walk df hv.1 (h e (by simp)) s
    obtain ⟨s2, h2⟩ := short_walks df hv.2 (fun x hx => h x (by simp [hx])) s1
    exact ⟨s2, by rw [Arith.trees, walkAll, h1]; exact h2⟩

theorem short_refused (df : Option JStr) {e : Arith} (hv : e.Valid) (hg : e.Grouped) (h : Brief e) (ha : e.isAtom = false)
    (post : List Token) (st : NStack) : mapNodeX df e.tree (e.tree.toks ++ post) st =
      .error ⟨.invalidExpression, some (j!"Array does not support this expression " ++ e.lexemes.flatten)⟩ := by
  have ht := textAt_arith hv hg post
  rcases h with h | ⟨x, hx, rfl | rfl⟩
  · rw [ha] at h; cases h
  · rw [Arith.tree] at ht ⊢
    rw [mapNodeX, ht]; rfl
  · rw [Arith.tree] at ht ⊢
    rw [mapNodeX, ht]; rfl

/-- The tokens of items from the first of them on to the parenthesis. -/
theorem items_refused (df : Option JStr) {a : Arith} {bs : List Arith} (post : List Token) :
    ∀ {as : List Arith}, Arith.AllValid (as ++ a :: bs) → Arith.AllGrouped (as ++ a :: bs) → (∀ e ∈ as, e.isAtom = true) →
    Brief a → a.isAtom = false → ∀ st,
    mapNodesX df (Arith.trees (as ++ a :: bs)) (Tree.toksList (Arith.trees (as ++ a :: bs)) ++ post) st =
      .error ⟨.invalidExpression, some (j!"Array does not support this expression " ++ a.lexemes.flatten)⟩
  | [], hv, hg, _, hs, ha, st => by
    simp only [List.nil_append] at hv hg ⊢
    rw [Arith.AllValid] at hv
    rw [Arith.AllGrouped] at hg
    rw [Arith.trees, mapNodesX, Tree.toksList, List.append_assoc, short_refused df hv.1 hg.1 hs ha]
    rfl
  | x :: as, hv, hg, hx, hs, ha, st => by
    simp only [List.cons_append] at hv hg ⊢
    rw [Arith.AllValid] at hv
    rw [Arith.AllGrouped] at hg
    obtain ⟨n, hn⟩ := atom_told df hv.1 (hx x (by simp)) (Tree.toksList (Arith.trees (x :: (as ++ a :: bs))) ++ post) st
    rw [Arith.trees] at hn ⊢
    rw [mapNodesX, hn]
    show (mapNodesX df (Arith.trees (as ++ a :: bs)) _ st >>= _) = _
    have ih := items_refused df post (as := as) hv.2 hg.2 (fun e he => hx e (by simp [he])) hs ha st
    have hd : (Tree.toksList (x.tree :: Arith.trees (as ++ a :: bs)) ++ post).drop (x.tree.width + 1) =
        Tree.toksList (Arith.trees (as ++ a :: bs)) ++ post := by
      cases hz : as ++ a :: bs with
      | nil => simp at hz
      | cons z zs =>
        rw [Tree.toksList, Arith.trees, Tree.toksMore, Tree.toksList, List.append_assoc, List.cons_append, drop_arith hv.1 hg.1]
    rw [hd, ih]
    rfl

end BoolParser
