import Verif.Lemmas.Seen
import Verif.Lemmas.CondNode
/-!
# The items of IN and CONTAINS on the listener's stack (for C44)
-/

namespace BoolParser
open Spec

/-- The tree of a text of a condition. -/
theorem spelled_cond {c : Cond} {s : JStr} (hv : c.Valid) (hg : c.Grouped) (hs : Renders c.lexemes s) :
    ∃ t, parseTokens (lex s) = some t ∧ t.mapTok canon = c.tree ∧ t.sane = true := by
  rw [← cond_toks] at hs
  have hw := cond_WF c hv hg 0 (.inl (by decide)) (.inl (by decide))
  have h1 := parse_toks hw
  rw [← lex_renders (cond_valid c hv) hs, parseTokens_map canon_kind canon_eof] at h1
  cases h2 : parseTokens (lex s) with
  | none => rw [h2] at h1; cases h1
  | some t' =>
    rw [h2] at h1
    injection h1 with h1
    exact ⟨t', rfl, h1, by rw [← sane_mapTok canon_kind, h1]; exact sane_of_WF c.tree 0 hw⟩

/-- The walk over a list and the mapping of its items. -/
theorem list_seen (df : Option JStr) {ts : List Tree} {items : List Arith} (hsp : SpelledAll ts items)
    (hv : Arith.AllValid items) (hb : items.all Arith.basic = true) :
    ∃ l c, walkAll df ts LState.init = .ok ⟨(items.filter (fun e => !e.isAtom)).reverse.map Arith.node, l, c⟩ ∧
      match Arith.seen items with
      | some as => ∃ st, mapNodes df ts ((items.filter (fun e => !e.isAtom)).reverse.map Arith.node) =
          .ok (Arith.nodes as, st)
      | none => ∃ x, mapNodes df ts ((items.filter (fun e => !e.isAtom)).reverse.map Arith.node) = .error x := by
  obtain ⟨l, c, hw⟩ := walk_spelled df ts items hsp hv hb LState.init
  have hm := maps_spelled df ts items hsp hv hb (items.filter (fun e => !e.isAtom)).reverse
  have : (compoundNodes items).reverse ++ LState.init.stack
      = (items.filter (fun e => !e.isAtom)).reverse.map Arith.node := by
    simp [compoundNodes, LState.init, List.map_reverse]
  rw [this] at hw
  exact ⟨l, c, hw, hm⟩

theorem in_seen {f : JStr} {neg : Bool} {items : List Arith} {s : JStr} (hv : (Cond.isIn f neg items).Valid)
    (hg : (Cond.isIn f neg items).Grouped) (hb : items.all Arith.basic = true)
    (hs : Renders (Cond.isIn f neg items).lexemes s) (df : Option JStr) :
    match Arith.seen items with
    | some as => parseExpression s df =
        .success (if neg then .not_ (.inn f (Arith.nodes as)) else .inn f (Arith.nodes as))
    | none => ∃ x, parseExpression s df = .failure x := by
  obtain ⟨t, h1, h2, h3⟩ := spelled_cond hv hg hs
  rw [Cond.tree] at h2
  cases t <;> rw [Tree.mapTok] at h2 <;> first | cases h2; done | skip
  rename_i f' neg' ts
  injection h2 with e1 e2 e3
  subst e2
  rw [Tree.sane, Bool.and_eq_true, beq_iff_eq] at h3
  rw [canon_field h3.1] at e1
  subst e1
  have hsp := spelledAll_of ts items e3 h3.2
  obtain ⟨l, c, hw, hm⟩ := list_seen df hsp hv.2.2 hb
  have hp : parseExpression s df = .ofResult (listen df (.in_ (fieldTok f) neg' ts)) := by rw [parseExpression, h1]
  rw [hp, listen, walk, hw, ok_bind, exitMapped, mapNode]
  dsimp only
  cases e : Arith.seen items with
  | none =>
    rw [e] at hm
    obtain ⟨x, hm⟩ := hm
    rw [hm]
    exact ⟨x, rfl⟩
  | some as =>
    rw [e] at hm
    obtain ⟨st, hm⟩ := hm
    rw [hm]
    rfl

theorem contains_seen {f : JStr} {o : ArrOp} {items : List Arith} {s : JStr} (hv : (Cond.contains f o items).Valid)
    (hg : (Cond.contains f o items).Grouped) (hb : items.all Arith.basic = true)
    (hs : Renders (Cond.contains f o items).lexemes s) (df : Option JStr) :
    match Arith.seen items with
    | some as => parseExpression s df = .success (.array f o (Arith.nodes as))
    | none => ∃ x, parseExpression s df = .failure x := by
  obtain ⟨t, h1, h2, h3⟩ := spelled_cond hv hg hs
  rw [Cond.tree] at h2
  cases t <;> rw [Tree.mapTok] at h2 <;> first | cases h2; done | skip
  rename_i f' o' ts
  injection h2 with e1 e2 e3
  subst e2
  rw [Tree.sane, Bool.and_eq_true, beq_iff_eq] at h3
  rw [canon_field h3.1] at e1
  subst e1
  have hsp := spelledAll_of ts items e3 h3.2
  obtain ⟨l, c, hw, hm⟩ := list_seen df hsp hv.2.2 hb
  have hp : parseExpression s df = .ofResult (listen df (.array (fieldTok f) o' ts)) := by rw [parseExpression, h1]
  rw [hp, listen, walk, hw, ok_bind, exitArray]
  dsimp only
  cases e : Arith.seen items with
  | none =>
    rw [e] at hm
    obtain ⟨x, hm⟩ := hm
    rw [hm]
    exact ⟨x, rfl⟩
  | some as =>
    rw [e] at hm
    obtain ⟨st, hm⟩ := hm
    rw [hm]
    rfl

theorem seen_isArithBase : (e : Arith) → e.node.isArithBase = true
  | .field _ => by rw [Arith.node]; rfl
  | .lit _ => by rw [Arith.node]; rfl
  | .group e => by rw [Arith.node]; exact seen_isArithBase e
  | .op _ _ _ => by rw [Arith.node]; rfl
  | .neg _ => by rw [Arith.node]; rfl
  | .call _ _ => by rw [Arith.node]; rfl

theorem seen_items_values (env : Env) (d : Data) : (es : List Arith) → Arith.AllValid es →
    evalItems env d (Arith.nodes es) = Arith.values env d es
  | [], _ => by rw [Arith.nodes, evalItems, Arith.values]
  | e :: es, h => by
    rw [Arith.AllValid] at h
    rw [Arith.nodes, evalItems, Arith.values, seen_items_values env d es h.2, itemValue, seen_isArithBase, if_pos rfl,
      ← arith_node none e h.1, arith_eval env d none e h.1]

theorem seen_in_meaning (env : Env) (d : Data) (df : Option JStr) (f : JStr) (neg : Bool) {as : List Arith}
    (h : Arith.AllValid as) :
    evalBool env d (if neg then .not_ (.inn f (Arith.nodes as)) else .inn f (Arith.nodes as)) =
      (Cond.isIn f neg as).meaning env d df := by
  have key : evalBool env d (.inn f (Arith.nodes as)) = (do
      let v ← Arith.fieldValue f d
      let vs ← Arith.values env d as
      Cond.member v vs) := by
    rw [evalBool, seen_items_values env d as h]; rfl
  rw [Cond.meaning]
  cases neg with
  | false =>
    show evalBool env d (.inn f (Arith.nodes as)) = _
    rw [key]
    cases Arith.fieldValue f d with
    | error e => rfl
    | ok v =>
      simp only [ok_bind]
      cases Arith.values env d as with
      | error e => rfl
      | ok vs =>
        simp only [ok_bind]
        cases Cond.member v vs <;> rfl
  | true =>
    show evalBool env d (.not_ (.inn f (Arith.nodes as))) = _
    rw [evalBool, key]
    cases Arith.fieldValue f d with
    | error e => rfl
    | ok v =>
      simp only [ok_bind]
      cases Arith.values env d as with
      | error e => rfl
      | ok vs =>
        simp only [ok_bind]
        cases Cond.member v vs <;> rfl

theorem seen_contains_meaning (env : Env) (d : Data) (df : Option JStr) (f : JStr) (o : ArrOp) {as : List Arith}
    (h : Arith.AllValid as) :
    evalBool env d (.array f o (Arith.nodes as)) = (Cond.contains f o as).meaning env d df := by
  rw [evalBool, seen_items_values env d as h, Cond.meaning]
  simp only [Cond.containsTest, hetero_eq]
  rfl

end BoolParser
