import Verif.Model.Locale
import Verif.Spec.Tokens
import Verif.Lemmas.Sim
import Verif.Lemmas.Yield
import Verif.Lemmas.Local
import Verif.Lemmas.Unfold
/-!
# Looking up functions and operators by name
-/

namespace BoolParser
open Spec

/-! ## Names in trees -/

mutual
/-- Every function name and CONTAINS keyword of the tree has the property. -/
def NTree.All (P : TK → JStr → Prop) : NTree → Prop
  | .paren t => t.All P
  | .not_ t => t.All P
  | .cmp _ l r => l.All P ∧ r.All P
  | .neg t => t.All P
  | .arith _ l r => l.All P ∧ r.All P
  | .func f name items => P (.fn f) name ∧ NTree.AllAll P items
  | .bin _ l r => l.All P ∧ r.All P
  | .types _ _ => True
  | .to_ _ _ _ => True
  | .in_ _ _ items => NTree.AllAll P items
  | .array _ op name items => P op.kind name ∧ NTree.AllAll P items
def NTree.AllAll (P : TK → JStr → Prop) : List NTree → Prop
  | [] => True
  | t :: ts => t.All P ∧ NTree.AllAll P ts
end

mutual
/-- The kinds of the function names and CONTAINS keywords of a tree, in the order of the text. -/
def Tree.names : Tree → List TK
  | .paren t => t.names
  | .not_ t => t.names
  | .cmp _ l r => l.names ++ r.names
  | .neg t => t.names
  | .arith _ l r => l.names ++ r.names
  | .func f items => .fn f :: Tree.namesAll items
  | .bin _ l r => l.names ++ r.names
  | .types _ _ => []
  | .to_ _ _ _ => []
  | .in_ _ _ items => Tree.namesAll items
  | .array _ op items => op.kind :: Tree.namesAll items
def Tree.namesAll : List Tree → List TK
  | [] => []
  | t :: ts => t.names ++ Tree.namesAll ts
end

theorem arrKind_isName (o : ArrOp) : o.kind.isName = true := by cases o <;> rfl

theorem lit_isName {k : TK} (h : k = .field ∨ isLitKind k = true) : k.isName = false := by
  rcases h with h | h
  · subst h; rfl
  · cases k <;> first | rfl | (simp [isLitKind] at h)

theorem num_isName {k : TK} (h : isNumKind k = true) : k.isName = false := by
  cases k <;> first | rfl | (simp [isNumKind] at h)

theorem filter_close (es : List (List TK)) :
    (closeKinds es).filter TK.isName = (es.map (·.filter TK.isName)).flatten := by
  induction es with
  | nil => rfl
  | cons e es ih => simp [closeKinds, TK.isName, ih]

theorem filter_list (es : List (List TK)) :
    (listKinds es).filter TK.isName = (es.map (·.filter TK.isName)).flatten := by
  cases es with
  | nil => rfl
  | cons e es => simp [listKinds, TK.isName, filter_close]

mutual
theorem names_kinds {R : Token → Token → Prop} : {t t' : Tree} → TreeRel R t t' → t.kinds.filter TK.isName = t.names
  | _, _, .paren h => by simp [Tree.kinds, Tree.names, TK.isName, names_kinds h]
  | _, _, .not_ h => by simp [Tree.kinds, Tree.names, TK.isName, names_kinds h]
  | _, _, .neg h => by simp [Tree.kinds, Tree.names, TK.isName, names_kinds h]
  | _, _, .cmp h h' => by simp [Tree.kinds, Tree.names, TK.isName, names_kinds h, names_kinds h']
  | _, _, .arith _ _ h h' => by simp [Tree.kinds, Tree.names, TK.isName, names_kinds h, names_kinds h']
  | _, _, .bin (c := c) h h' => by
    cases c <;> simp [Tree.kinds, Tree.names, connKind, TK.isName, names_kinds h, names_kinds h']
  | _, _, .func _ _ h => by
    rw [Tree.kinds, Tree.names, List.filter_cons_of_pos (by rfl), filter_list, names_kinds_all h]
  | _, _, .types e _ h _ => by
    cases e with
    | true => rfl
    | false => simp [Tree.kinds, Tree.names, lit_isName (h rfl)]
  | _, _, .to_ _ _ _ h1 h2 h3 => by
    simp [Tree.kinds, Tree.names, lit_isName (.inl h1), num_isName h2, num_isName h3, show TK.kTo.isName = false from rfl]
  | _, _, .in_ n _ h1 h => by
    cases n <;> simp [Tree.kinds, Tree.names, lit_isName (.inl h1), show TK.kIn.isName = false from rfl,
      show TK.kNot.isName = false from rfl, filter_list, ← names_kinds_all h]
  | _, _, .array o _ h1 h => by
    simp [Tree.kinds, Tree.names, lit_isName (.inl h1), arrKind_isName, filter_list, ← names_kinds_all h]
theorem names_kinds_all {R : Token → Token → Prop} : {ts ts' : List Tree} → TreesRel R ts ts' →
    ((kindsAll ts).map (·.filter TK.isName)).flatten = Tree.namesAll ts
  | _, _, .nil => rfl
  | _, _, .cons h hs => by
    simp [kindsAll, Tree.namesAll, names_kinds h, names_kinds_all hs]
end

mutual
theorem dress_erase : (t : Tree) → (ns : List Token) → (dress t ns).1.erase = t
  | .paren t, ns => by simp [dress, NTree.erase, dress_erase t]
  | .not_ t, ns => by simp [dress, NTree.erase, dress_erase t]
  | .cmp _ l r, ns => by simp [dress, NTree.erase, dress_erase l, dress_erase r]
  | .neg t, ns => by simp [dress, NTree.erase, dress_erase t]
  | .arith _ l r, ns => by simp [dress, NTree.erase, dress_erase l, dress_erase r]
  | .func f items, ns => by simp [dress, NTree.erase, dressAll_erase items]
  | .bin _ l r, ns => by simp [dress, NTree.erase, dress_erase l, dress_erase r]
  | .types _ _, ns => by simp [dress, NTree.erase]
  | .to_ _ _ _, ns => by simp [dress, NTree.erase]
  | .in_ _ _ items, ns => by simp [dress, NTree.erase, dressAll_erase items]
  | .array _ op items, ns => by simp [dress, NTree.erase, dressAll_erase items]
theorem dressAll_erase : (ts : List Tree) → (ns : List Token) → NTree.eraseAll (dressAll ts ns).1 = ts
  | [], ns => by simp [dressAll, NTree.eraseAll]
  | t :: ts, ns => by simp [dressAll, NTree.eraseAll, dress_erase t, dressAll_erase ts]
end

/-- What putting names into a tree does: the names used up are the tree's, in order. -/
def Used (P : TK → JStr → Prop) (ks : List TK) (ns rest : List Token) (a : Prop) : Prop :=
  ∃ us, ns = us ++ rest ∧ us.map Token.kind = ks ∧ (a ↔ ∀ u ∈ us, P u.kind u.text)

theorem Used.append {P : TK → JStr → Prop} {ks ks' : List TK} {ns ms rs : List Token} {a b : Prop}
    (h : Used P ks ns ms a) (h' : Used P ks' ms rs b) : Used P (ks ++ ks') ns rs (a ∧ b) := by
  obtain ⟨us, e1, e2, e3⟩ := h
  obtain ⟨vs, f1, f2, f3⟩ := h'
  refine ⟨us ++ vs, by rw [e1, f1, List.append_assoc], by rw [List.map_append, e2, f2], ?_⟩
  rw [e3, f3]
  simp only [List.mem_append]
  exact ⟨fun h u hu => hu.elim (h.1 u) (h.2 u), fun h => ⟨fun u hu => h u (.inl hu), fun u hu => h u (.inr hu)⟩⟩

theorem Used.none {P : TK → JStr → Prop} {ns : List Token} : Used P [] ns ns True :=
  ⟨[], rfl, rfl, by simp⟩

theorem Used.rest {P : TK → JStr → Prop} {ks ks' : List TK} {ns rs : List Token} {a : Prop} (h : Used P ks ns rs a)
    (hk : ns.map Token.kind = ks ++ ks') : rs.map Token.kind = ks' := by
  obtain ⟨us, e1, e2, -⟩ := h
  rw [e1, List.map_append, e2] at hk
  exact List.append_cancel_left hk

theorem used_head {P : TK → JStr → Prop} {k : TK} {ns : List Token} {ks : List TK}
    (hk : ns.map Token.kind = k :: ks) : Used P [k] ns ns.tail (P k ((ns.head?.map Token.text).getD [])) := by
  cases ns with
  | nil => simp at hk
  | cons u us =>
    simp only [List.map_cons, List.cons.injEq] at hk
    exact ⟨[u], rfl, by simp [hk.1], by simp [hk.1]⟩

mutual
theorem dress_used (P : TK → JStr → Prop) : (t : Tree) → {ns : List Token} → {ks : List TK} →
    ns.map Token.kind = t.names ++ ks → Used P t.names ns (dress t ns).2 ((dress t ns).1.All P)
  | .paren t, ns, ks, h => by
    have := dress_used P t (ns := ns) h
    simpa only [dress, NTree.All, Tree.names] using this
  | .not_ t, ns, ks, h => by
    have := dress_used P t (ns := ns) h
    simpa only [dress, NTree.All, Tree.names] using this
  | .cmp _ l r, ns, ks, h => by
    rw [Tree.names, List.append_assoc] at h
    have h1 := dress_used P l h
    have h2 := dress_used P r (h1.rest h)
    simpa only [dress, NTree.All, Tree.names] using h1.append h2
  | .neg t, ns, ks, h => by
    have := dress_used P t (ns := ns) h
    simpa only [dress, NTree.All, Tree.names] using this
  | .arith _ l r, ns, ks, h => by
    rw [Tree.names, List.append_assoc] at h
    have h1 := dress_used P l h
    have h2 := dress_used P r (h1.rest h)
    simpa only [dress, NTree.All, Tree.names] using h1.append h2
  | .func f items, ns, ks, h => by
    rw [Tree.names, List.cons_append] at h
    have h1 := used_head (P := P) h
    have h2 := dressAll_used P items (h1.rest (ks' := Tree.namesAll items ++ ks) h)
    simpa only [dress, NTree.All, Tree.names, List.cons_append, List.nil_append] using h1.append h2
  | .bin _ l r, ns, ks, h => by
    rw [Tree.names, List.append_assoc] at h
    have h1 := dress_used P l h
    have h2 := dress_used P r (h1.rest h)
    simpa only [dress, NTree.All, Tree.names] using h1.append h2
  | .types _ _, ns, ks, h => by
    simpa only [dress, NTree.All, Tree.names] using Used.none
  | .to_ _ _ _, ns, ks, h => by
    simpa only [dress, NTree.All, Tree.names] using Used.none
  | .in_ _ _ items, ns, ks, h => by
    have := dressAll_used P items (ns := ns) h
    simpa only [dress, NTree.All, Tree.names] using this
  | .array _ op items, ns, ks, h => by
    rw [Tree.names, List.cons_append] at h
    have h1 := used_head (P := P) h
    have h2 := dressAll_used P items (h1.rest (ks' := Tree.namesAll items ++ ks) h)
    simpa only [dress, NTree.All, Tree.names, List.cons_append, List.nil_append] using h1.append h2
theorem dressAll_used (P : TK → JStr → Prop) : (ts : List Tree) → {ns : List Token} → {ks : List TK} →
    ns.map Token.kind = Tree.namesAll ts ++ ks →
    Used P (Tree.namesAll ts) ns (dressAll ts ns).2 (NTree.AllAll P (dressAll ts ns).1)
  | [], ns, ks, h => by
    simpa only [dressAll, NTree.AllAll, Tree.namesAll] using Used.none
  | t :: ts, ns, ks, h => by
    rw [Tree.namesAll, List.append_assoc] at h
    have h1 := dress_used P t h
    have h2 := dressAll_used P ts (h1.rest h)
    simpa only [dressAll, NTree.AllAll, Tree.namesAll] using h1.append h2
end

/-- The names of a tree are the function names and CONTAINS keywords of the text. -/
theorem dressed {ts : List Token} {t : Tree} (h : parseTokens ts = some t) (P : TK → JStr → Prop) :
    (dress t (ts.filter fun k => k.kind.isName)).1.erase = t ∧
    ((dress t (ts.filter fun k => k.kind.isName)).1.All P ↔ ∀ u ∈ ts, u.kind.isName = true → P u.kind u.text) := by
  refine ⟨dress_erase _ _, ?_⟩
  have hr : TreeRel (· = ·) t t := by
    have h1 := parseTokens_rel (R := (· = ·)) (fun _ _ h => by rw [h]) rfl (ts := ts) (ts' := ts)
      (by clear h; induction ts with
        | nil => exact .nil
        | cons _ _ ih => exact .cons rfl ih)
    rw [h] at h1
    cases h1 with
    | some h1 => exact h1
  have hk : (ts.filter fun k => k.kind.isName).map Token.kind = t.names ++ [] := by
    rw [List.append_nil, ← names_kinds hr, parseTokens_kinds h, kindsOf, List.filter_map]
    rfl
  have hu := dress_used P t hk
  have h0 := hu.rest hk
  obtain ⟨us, e1, -, e3⟩ := hu
  rw [List.map_eq_nil_iff] at h0
  rw [h0, List.append_nil] at e1
  rw [e3, ← e1]
  simp only [List.mem_filter, and_imp]

/-! ## The listener -/

mutual
/-- No array node has lost its operator. -/
def NNode.sure : NNode → Prop
  | .cmp l r _ _ => l.sure ∧ r.sure
  | .range _ _ _ _ _ => True
  | .inn _ items => NNode.sureAll items
  | .array _ _ known items => known = true ∧ NNode.sureAll items
  | .unary _ _ => True
  | .and_ l r => l.sure ∧ r.sure
  | .or_ l r => l.sure ∧ r.sure
  | .not_ l => l.sure
  | .field _ => True
  | .arith _ l r => l.sure ∧ r.sure
  | .neg l => l.sure
  | .func _ items => NNode.sureAll items
def NNode.sureAll : List NNode → Prop
  | [] => True
  | n :: ns => n.sure ∧ NNode.sureAll ns
end

/-- The function name is found; with `k` the CONTAINS keyword is found too. -/
def KnownName (loc : Locale) (k : Prop) (t : TK) (name : JStr) : Prop :=
  (∀ f, t = .fn f → functionIn loc name = some f) ∧ (k → ∀ o : ArrOp, t = o.kind → arrayKnown loc o name = true)

/-- The node is `m` up to lost operators; with `k` none is lost. -/
def Stands (k : Prop) (n : NNode) (m : Node) : Prop := n.erase = m ∧ (k → n.sure)

def StandsAll (k : Prop) (ns : List NNode) (ms : List Node) : Prop := NNode.eraseAll ns = ms ∧ (k → NNode.sureAll ns)

theorem is_leaf {k : Prop} {df : Option JStr} (t : Token) (e : Bool) :
    RRel (fun n m => Stands k (.leaf n) m) (mapTypes df t e) (mapTypes df t e) := by
  unfold mapTypes
  split
  · exact .ok ⟨by simp [NNode.leaf, NNode.erase], fun _ => by simp [NNode.leaf, NNode.sure]⟩
  · split
    · exact .ok ⟨by simp [NNode.leaf, NNode.erase], fun _ => by simp [NNode.leaf, NNode.sure]⟩
    · cases convertValue t.text (tokType t) with
      | error e => exact .error e
      | ok v => exact .ok ⟨by simp [NNode.leaf, NNode.erase], fun _ => by simp [NNode.leaf, NNode.sure]⟩

theorem pop_rel {k : Prop} {st : List NNode} {st' : NStack} (h : List.Forall₂ (Stands k) st st') :
    RRel (fun p q => Stands k p.1 q.1 ∧ List.Forall₂ (Stands k) p.2 q.2) (popNN st) (popN st') := by
  cases h with
  | nil => exact .error _
  | cons h hs => exact .ok ⟨h, hs⟩

theorem erase_stack {k : Prop} {st : List NNode} {st' : NStack} (h : List.Forall₂ (Stands k) st st') :
    st.map NNode.erase = st' := by
  induction h with
  | nil => rfl
  | cons h _ ih => rw [List.map_cons, h.1, ih]

theorem is_cmp {k : Prop} {a b : NNode} {a' b' : Node} (ha : Stands k a a') (hb : Stands k b b') (op : CmpOp) (dt : DataType) :
    Stands k (.cmp a b op dt) (.cmp a' b' op dt) :=
  ⟨by rw [NNode.erase, ha.1, hb.1], fun h => by rw [NNode.sure]; exact ⟨ha.2 h, hb.2 h⟩⟩

theorem is_arith {k : Prop} {a b : NNode} {a' b' : Node} (ha : Stands k a a') (hb : Stands k b b') (op : ArithOp) :
    Stands k (.arith op a b) (.arith op a' b') :=
  ⟨by rw [NNode.erase, ha.1, hb.1], fun h => by rw [NNode.sure]; exact ⟨ha.2 h, hb.2 h⟩⟩

theorem mapNodeN_arith (loc : Locale) (df : Option JStr) (op : ArithOp) (l r : NTree) (st : List NNode) :
    mapNodeN loc df (.arith op l r) st =
    if l.erase.isTypes && r.erase.isTypes then do
      let (a, st) ← mapNodeN loc df l st
      let (b, st) ← mapNodeN loc df r st
      pure (.arith op a b, st)
    else if l.erase.isTypes then do
      let (a, st) ← mapNodeN loc df l st
      let (b, st) ← popNN st
      pure (.arith op a b, st)
    else if r.erase.isTypes then do
      let (b, st) ← mapNodeN loc df r st
      let (a, st) ← popNN st
      pure (.arith op a b, st)
    else
      match st with
      | b :: a :: st => .ok (.arith op a b, st)
      | _ => .error .invalidExpression := by
  cases st with
  | nil => rw [mapNodeN]; intros; contradiction
  | cons b st =>
    cases st with
    | nil => rw [mapNodeN]; intro _ _ _ h; simp at h
    | cons a st => rw [mapNodeN]

variable {loc : Locale} {k : Prop} {df : Option JStr}

mutual
theorem mapNodeN_rel : (t : NTree) → t.All (KnownName loc k) → {st : List NNode} → {st' : NStack} →
    List.Forall₂ (Stands k) st st' →
    RRel (fun p q => Stands k p.1 q.1 ∧ List.Forall₂ (Stands k) p.2 q.2) (mapNodeN loc df t st) (mapNode df t.erase st')
  | .types t e, _, st, st', h => by
    rw [mapNodeN, NTree.erase, mapNode]
    exact (is_leaf t e).bind fun a b hab => .ok ⟨hab, h⟩
  | .func f name items, ht, st, st', h => by
    rw [NTree.All] at ht
    rw [mapNodeN, NTree.erase, mapNode, ht.1.1 f rfl]
    refine (mapNodesN_rel items ht.2 h).bind fun a b hab => .ok ⟨⟨?_, ?_⟩, hab.2⟩
    · rw [NNode.erase, hab.1.1]
    · intro hk; rw [NNode.sure]; exact hab.1.2 hk
  | .in_ f neg items, ht, st, st', h => by
    rw [NTree.All] at ht
    rw [mapNodeN, NTree.erase, mapNode]
    refine (mapNodesN_rel items ht h).bind fun a b hab => .ok ⟨?_, hab.2⟩
    cases neg
    · exact ⟨by simp [NNode.erase, hab.1.1], fun hk => by simp [NNode.sure, hab.1.2 hk]⟩
    · exact ⟨by simp [NNode.erase, hab.1.1], fun hk => by simp [NNode.sure, hab.1.2 hk]⟩
  | .to_ f lo hi, ht, st, st', h => by
    rw [mapNodeN, NTree.erase, mapNode]
    cases convertValue lo.text (tokType lo) with
    | error e => exact .error e
    | ok a =>
      cases convertValue hi.text (tokType hi) with
      | error e => exact .error e
      | ok b => exact .ok ⟨⟨by simp [NNode.erase], fun _ => by simp [NNode.sure]⟩, h⟩
  | .cmp op l r, ht, st, st', h => by
    rw [NTree.All] at ht
    have hu : useStackN st l r = useStack st' l.erase r.erase := by rw [useStackN, erase_stack h]
    rw [mapNodeN, NTree.erase, mapNode, hu]
    split
    · exact (mapNodeN_rel l ht.1 h).bind fun a b hab => (pop_rel hab.2).bind fun c e hce =>
        .ok ⟨is_cmp hab.1 hce.1 _ _, hce.2⟩
    · split
      · exact (mapNodeN_rel r ht.2 h).bind fun a b hab => (pop_rel hab.2).bind fun c e hce =>
          .ok ⟨is_cmp hce.1 hab.1 _ _, hce.2⟩
      · exact (mapNodeN_rel r ht.2 h).bind fun a b hab => (mapNodeN_rel l ht.1 hab.2).bind fun c e hce =>
          .ok ⟨is_cmp hce.1 hab.1 _ _, hce.2⟩
  | .arith op l r, ht, st, st', h => by
    rw [NTree.All] at ht
    rw [mapNodeN_arith, NTree.erase, mapNode_arith]
    split
    · exact (mapNodeN_rel l ht.1 h).bind fun a b hab => (mapNodeN_rel r ht.2 hab.2).bind fun c e hce =>
        .ok ⟨is_arith hab.1 hce.1 _, hce.2⟩
    · split
      · exact (mapNodeN_rel l ht.1 h).bind fun a b hab => (pop_rel hab.2).bind fun c e hce =>
          .ok ⟨is_arith hab.1 hce.1 _, hce.2⟩
      · split
        · exact (mapNodeN_rel r ht.2 h).bind fun a b hab => (pop_rel hab.2).bind fun c e hce =>
            .ok ⟨is_arith hce.1 hab.1 _, hce.2⟩
        · cases h with
          | nil => exact .error _
          | cons h1 hs =>
            cases hs with
            | nil => exact .error _
            | cons h2 hs => exact .ok ⟨is_arith h2 h1 _, hs⟩
  | .paren _, _, st, st', h => by rw [mapNodeN, NTree.erase, mapNode]; exact .error _
  | .not_ _, _, st, st', h => by rw [mapNodeN, NTree.erase, mapNode]; exact .error _
  | .neg _, _, st, st', h => by rw [mapNodeN, NTree.erase, mapNode]; exact .error _
  | .bin _ _ _, _, st, st', h => by rw [mapNodeN, NTree.erase, mapNode]; exact .error _
  | .array _ _ _ _, _, st, st', h => by rw [mapNodeN, NTree.erase, mapNode]; exact .error _
theorem mapNodesN_rel : (ts : List NTree) → NTree.AllAll (KnownName loc k) ts → {st : List NNode} → {st' : NStack} →
    List.Forall₂ (Stands k) st st' →
    RRel (fun p q => StandsAll k p.1 q.1 ∧ List.Forall₂ (Stands k) p.2 q.2) (mapNodesN loc df ts st)
      (mapNodes df (NTree.eraseAll ts) st')
  | [], _, st, st', h => by
    rw [mapNodesN, NTree.eraseAll, mapNodes]
    exact .ok ⟨⟨by simp [NNode.eraseAll], fun _ => by simp [NNode.sureAll]⟩, h⟩
  | t :: ts, ht, st, st', h => by
    rw [NTree.AllAll] at ht
    rw [mapNodesN, NTree.eraseAll, mapNodes]
    exact (mapNodeN_rel t ht.1 h).bind fun a b hab => (mapNodesN_rel ts ht.2 hab.2).bind fun c e hce =>
      .ok ⟨⟨by simp [NNode.eraseAll, hab.1.1, hce.1.1], fun hk => by
        simp [NNode.sureAll, hab.1.2 hk, hce.1.2 hk]⟩, hce.2⟩
end

/-- States that agree up to lost operators. -/
def SameState (k : Prop) (s : NState) (s' : LState) : Prop :=
  List.Forall₂ (Stands k) s.stack s'.stack ∧ s.last = s'.last ∧ s.count = s'.count

theorem exitMappedN_rel {t : NTree} (ht : t.All (KnownName loc k)) {s : NState} {s' : LState} (h : SameState k s s') :
    RRel (SameState k) (exitMappedN loc df t s) (exitMapped df t.erase s') :=
  (mapNodeN_rel t ht h.1).bind fun _ _ hab => .ok ⟨.cons hab.1 hab.2, h.2⟩

theorem arith_erase {n : NNode} {m : Node} (h : Stands k n m) : n.erase.isArithNode = m.isArithNode := by rw [h.1]

theorem negLeaf_rel {e : NTree} {s : NState} {s' : LState} (h : SameState k s s') :
    RRel (SameState k)
      (match e with
        | .types t em => do
          let n ← mapTypes df t em
          pure { s with stack := .neg (.leaf n) :: s.stack }
        | _ => .error .classCast : Result NState)
      (match e.erase with
        | .types t em => do
          let n ← mapTypes df t em
          pure { s' with stack := .neg n :: s'.stack }
        | _ => .error .classCast : Result LState) := by
  cases e <;> simp only [NTree.erase] <;> first
    | exact .error _
    | exact (is_leaf _ _).bind fun a b hab => .ok ⟨.cons ⟨by rw [NNode.erase, hab.1], fun hk => by
        rw [NNode.sure]; exact hab.2 hk⟩ h.1, h.2⟩

theorem exitNegN_rel {e : NTree} {s : NState} {s' : LState} (h : SameState k s s') :
    RRel (SameState k) (exitNegN df e s) (exitNeg df e.erase s') := by
  have hl := negLeaf_rel (df := df) (e := e) h
  obtain ⟨st, last, count⟩ := s
  obtain ⟨st', last', count'⟩ := s'
  obtain ⟨h1, h2, h3⟩ := h
  simp only at h1 h2 h3
  unfold exitNegN exitNeg
  cases h1 with
  | nil => exact hl
  | @cons n m ns ms h1 hs =>
    simp only [h1.1]
    split
    · exact .ok ⟨.cons ⟨by rw [NNode.erase, h1.1], fun hk => by rw [NNode.sure]; exact h1.2 hk⟩ hs, h2, h3⟩
    · exact hl

theorem exitArrayN_rel {f : Token} {op : ArrOp} {name : JStr} {items : List NTree} {s : NState} {s' : LState}
    (hi : NTree.AllAll (KnownName loc k) items) (hn : KnownName loc k op.kind name) (h : SameState k s s') :
    RRel (SameState k) (exitArrayN loc df f op name items s) (exitArray df f op (NTree.eraseAll items) s') :=
  (mapNodesN_rel items hi h.1).bind fun _ _ hab => .ok ⟨.cons ⟨by simp [NNode.erase, hab.1.1], fun hk => by
    rw [NNode.sure]; exact ⟨hn.2 hk op rfl, hab.1.2 hk⟩⟩ hab.2, h.2⟩

theorem exitNotN_rel {s : NState} {s' : LState} (h : SameState k s s') :
    RRel (SameState k) (exitNotN s) (exitNot s') := by
  obtain ⟨st, last, count⟩ := s
  obtain ⟨st', last', count'⟩ := s'
  obtain ⟨h1, h2, h3⟩ := h
  simp only at h1 h2 h3
  unfold exitNotN exitNot
  cases h1 with
  | cons h1 hs =>
    exact .ok ⟨.cons ⟨by rw [NNode.erase, h1.1], fun hk => by rw [NNode.sure]; exact h1.2 hk⟩ hs, h2, h3⟩
  | nil =>
    subst h2
    cases last with
    | none => exact .error _
    | some t =>
      simp only
      cases convertValue t.text (tokType t) with
      | error e => exact .error e
      | ok v => exact .ok ⟨.cons ⟨by simp [NNode.erase], fun _ => by simp [NNode.sure]⟩ .nil, rfl, h3⟩

theorem exitBinN_rel {c : Bool} {s : NState} {s' : LState} (h : SameState k s s') :
    RRel (SameState k) (exitBinN c s) (exitBin c s') := by
  obtain ⟨st, last, count⟩ := s
  obtain ⟨st', last', count'⟩ := s'
  obtain ⟨h1, h2, h3⟩ := h
  simp only at h1 h2 h3
  unfold exitBinN exitBin
  cases h1 with
  | nil => exact .error _
  | cons h1 hs =>
    cases hs with
    | nil => exact .error _
    | cons h4 hs =>
      refine .ok ⟨.cons ?_ hs, h2, h3⟩
      cases c
      · exact ⟨by simp [NNode.erase, h1.1, h4.1], fun hk => by simp [NNode.sure, h1.2 hk, h4.2 hk]⟩
      · exact ⟨by simp [NNode.erase, h1.1, h4.1], fun hk => by simp [NNode.sure, h1.2 hk, h4.2 hk]⟩

mutual
theorem walkN_rel : (t : NTree) → t.All (KnownName loc k) → {s : NState} → {s' : LState} → SameState k s s' →
    RRel (SameState k) (walkN loc df t s) (walk df t.erase s')
  | .paren t, ht, s, s', h => by
    rw [NTree.All] at ht
    rw [walkN, NTree.erase, walk]; exact walkN_rel t ht h
  | .not_ t, ht, s, s', h => by
    rw [NTree.All] at ht
    rw [walkN, NTree.erase, walk]
    exact (walkN_rel t ht h).bind fun _ _ h => exitNotN_rel h
  | .cmp op l r, ht, s, s', h => by
    have ht' := ht
    rw [NTree.All] at ht
    rw [walkN, NTree.erase, walk]
    exact (walkN_rel l ht.1 h).bind fun _ _ h => (walkN_rel r ht.2 h).bind fun _ _ h => by
      have := exitMappedN_rel (df := df) ht' h
      rwa [NTree.erase] at this
  | .neg t, ht, s, s', h => by
    rw [NTree.All] at ht
    rw [walkN, NTree.erase, walk]
    exact (walkN_rel t ht h).bind fun _ _ h => exitNegN_rel h
  | .arith op l r, ht, s, s', h => by
    have ht' := ht
    rw [NTree.All] at ht
    rw [walkN, NTree.erase, walk]
    exact (walkN_rel l ht.1 h).bind fun _ _ h => (walkN_rel r ht.2 h).bind fun _ _ h => by
      have := exitMappedN_rel (df := df) ht' h
      rwa [NTree.erase] at this
  | .func f name items, ht, s, s', h => by
    have ht' := ht
    rw [NTree.All] at ht
    rw [walkN, NTree.erase, walk]
    exact (walkAllN_rel items ht.2 h).bind fun _ _ h => by
      have := exitMappedN_rel (df := df) ht' h
      rwa [NTree.erase] at this
  | .bin c l r, ht, s, s', h => by
    rw [NTree.All] at ht
    rw [walkN, NTree.erase, walk]
    exact (walkN_rel l ht.1 h).bind fun _ _ h => (walkN_rel r ht.2 h).bind fun _ _ h => exitBinN_rel h
  | .types t e, ht, s, s', h => by
    rw [walkN, NTree.erase, walk]
    exact .ok ⟨h.1, rfl, by simp [h.2.2]⟩
  | .to_ f lo hi, ht, s, s', h => by
    rw [walkN, NTree.erase, walk]
    have := exitMappedN_rel (df := df) ht h
    rwa [NTree.erase] at this
  | .in_ f neg items, ht, s, s', h => by
    have ht' := ht
    rw [NTree.All] at ht
    rw [walkN, NTree.erase, walk]
    exact (walkAllN_rel items ht h).bind fun _ _ h => by
      have := exitMappedN_rel (df := df) ht' h
      rwa [NTree.erase] at this
  | .array f op name items, ht, s, s', h => by
    rw [NTree.All] at ht
    rw [walkN, NTree.erase, walk]
    exact (walkAllN_rel items ht.2 h).bind fun _ _ h => exitArrayN_rel ht.2 ht.1 h
theorem walkAllN_rel : (ts : List NTree) → NTree.AllAll (KnownName loc k) ts → {s : NState} → {s' : LState} →
    SameState k s s' → RRel (SameState k) (walkAllN loc df ts s) (walkAll df (NTree.eraseAll ts) s')
  | [], _, s, s', h => by
    rw [walkAllN, NTree.eraseAll, walkAll]; exact .ok h
  | t :: ts, ht, s, s', h => by
    rw [NTree.AllAll] at ht
    rw [walkAllN, NTree.eraseAll, walkAll]
    exact (walkN_rel t ht.1 h).bind fun _ _ h => walkAllN_rel ts ht.2 h
end

theorem exitParseN_rel {s : NState} {s' : LState} (h : SameState k s s') : RRel (Stands k) (exitParseN s) (exitParse s') := by
  obtain ⟨st, last, count⟩ := s
  obtain ⟨st', last', count'⟩ := s'
  obtain ⟨h1, h2, h3⟩ := h
  simp only at h1 h2 h3
  subst h2 h3
  unfold exitParseN exitParse
  cases h1 with
  | cons h1 hs => exact .ok h1
  | nil =>
    cases last with
    | none => exact .error _
    | some t =>
      simp only
      split
      · split
        · exact .ok ⟨by simp [NNode.erase], fun _ => by simp [NNode.sure]⟩
        · cases convertValue t.text .string with
          | error e => exact .error e
          | ok v => exact .ok ⟨by simp [NNode.erase], fun _ => by simp [NNode.sure]⟩
      · exact .error _

/-- The listener with all function names found. -/
theorem listenN_rel {t : NTree} (ht : t.All (KnownName loc k)) :
    RRel (Stands k) (do let s ← walkN loc df t ⟨[], none, 0⟩; exitParseN s) (listen df t.erase) :=
  (walkN_rel t ht (s := ⟨[], none, 0⟩) (s' := LState.init) ⟨.nil, rfl, rfl⟩).bind fun _ _ h => exitParseN_rel h

/-! ## Function names that are not found -/

/-- A function name is one of some function. -/
def Found (loc : Locale) (t : TK) (name : JStr) : Prop := ∀ f, t = .fn f → functionIn loc name ≠ none

mutual
theorem walkN_found : (t : NTree) → {s s' : NState} → walkN loc df t s = .ok s' → t.All (Found loc)
  | .paren t, s, s', h => by
    rw [walkN] at h; rw [NTree.All]; exact walkN_found t h
  | .not_ t, s, s', h => by
    rw [walkN] at h; rw [NTree.All]
    obtain ⟨a, h1, h2⟩ := bind_ok_inv h
    exact walkN_found t h1
  | .cmp op l r, s, s', h => by
    rw [walkN] at h; rw [NTree.All]
    obtain ⟨a, h1, h2⟩ := bind_ok_inv h
    obtain ⟨b, h3, h4⟩ := bind_ok_inv h2
    exact ⟨walkN_found l h1, walkN_found r h3⟩
  | .neg t, s, s', h => by
    rw [walkN] at h; rw [NTree.All]
    obtain ⟨a, h1, h2⟩ := bind_ok_inv h
    exact walkN_found t h1
  | .arith op l r, s, s', h => by
    rw [walkN] at h; rw [NTree.All]
    obtain ⟨a, h1, h2⟩ := bind_ok_inv h
    obtain ⟨b, h3, h4⟩ := bind_ok_inv h2
    exact ⟨walkN_found l h1, walkN_found r h3⟩
  | .func f name items, s, s', h => by
    rw [walkN] at h; rw [NTree.All]
    obtain ⟨a, h1, h2⟩ := bind_ok_inv h
    refine ⟨fun _ _ hn => ?_, walkAllN_found items h1⟩
    rw [exitMappedN, mapNodeN, hn] at h2
    cases h2
  | .bin c l r, s, s', h => by
    rw [walkN] at h; rw [NTree.All]
    obtain ⟨a, h1, h2⟩ := bind_ok_inv h
    obtain ⟨b, h3, h4⟩ := bind_ok_inv h2
    exact ⟨walkN_found l h1, walkN_found r h3⟩
  | .types t e, s, s', h => by rw [NTree.All]; trivial
  | .to_ f lo hi, s, s', h => by rw [NTree.All]; trivial
  | .in_ f neg items, s, s', h => by
    rw [walkN] at h; rw [NTree.All]
    obtain ⟨a, h1, h2⟩ := bind_ok_inv h
    exact walkAllN_found items h1
  | .array f op name items, s, s', h => by
    rw [walkN] at h; rw [NTree.All]
    obtain ⟨a, h1, h2⟩ := bind_ok_inv h
    refine ⟨fun _ hf => ?_, walkAllN_found items h1⟩
    cases op <;> cases hf
theorem walkAllN_found : (ts : List NTree) → {s s' : NState} → walkAllN loc df ts s = .ok s' →
    NTree.AllAll (Found loc) ts
  | [], s, s', h => by rw [NTree.AllAll]; trivial
  | t :: ts, s, s', h => by
    rw [walkAllN] at h; rw [NTree.AllAll]
    obtain ⟨a, h1, h2⟩ := bind_ok_inv h
    exact ⟨walkN_found t h1, walkAllN_found ts h2⟩
end

/-! ## Evaluation -/

variable {env : Env} {d : Data}

theorem operandValue_mono {n : Node} {x y : Result Bool} (h : ∀ b, x = .ok b → y = .ok b) {v : Option Value}
    (hv : operandValue env d n x = .ok v) : operandValue env d n y = .ok v := by
  have key : ∀ v, (do let b ← x; pure (some (Value.bool b)) : Result (Option Value)) = .ok v →
      (do let b ← y; pure (some (Value.bool b)) : Result (Option Value)) = .ok v := by
    intro v hv
    obtain ⟨b, h1, h2⟩ := bind_ok_inv hv
    rw [h b h1]; exact h2
  cases n <;> simp only [operandValue, Node.isArithBase] at hv ⊢ <;> first | exact hv | exact key _ hv

theorem itemValue_mono {n : Node} {x y : Result Bool} (h : ∀ b, x = .ok b → y = .ok b) {v : Value}
    (hv : itemValue env d n x = .ok v) : itemValue env d n y = .ok v := by
  unfold itemValue at hv ⊢
  split
  · rename_i hb; rw [if_pos hb] at hv; exact hv
  · rename_i hb; rw [if_neg hb] at hv
    obtain ⟨b, h1, h2⟩ := bind_ok_inv hv
    rw [h b h1]; exact h2

theorem evalComparison_mono {op : CmpOp} {l r : Node} {lv rv lv' rv' : Result (Option Value)}
    (hl : ∀ v, lv = .ok v → lv' = .ok v) (hr : ∀ v, rv = .ok v → rv' = .ok v) {b : Bool}
    (h : evalComparison op l r lv rv = .ok b) : evalComparison op l r lv' rv' = .ok b := by
  unfold evalComparison at h ⊢
  obtain ⟨lo, h1, h2⟩ := bind_ok_inv h
  obtain ⟨nc, h3, h4⟩ := bind_ok_inv h2
  obtain ⟨a, h5, h6⟩ := bind_ok_inv h4
  obtain ⟨c, h7, h8⟩ := bind_ok_inv h6
  rw [hl _ h1, ok_bind, h3, ok_bind, h5, ok_bind]
  cases nc with
  | true => simp only [if_true] at h7 ⊢; rw [h7]; exact h8
  | false =>
    simp only [Bool.false_eq_true, if_false] at h7 ⊢
    obtain ⟨ro, h9, h10⟩ := bind_ok_inv h7
    rw [hr _ h9, ok_bind, h10]; exact h8

mutual
theorem evalBoolN_ok : (n : NNode) → {b : Bool} → evalBoolN env d n = .ok b → evalBool env d n.erase = .ok b
  | .cmp l r op dt, b, h => by
    rw [evalBoolN] at h; rw [NNode.erase, evalBool]
    exact evalComparison_mono (fun _ => operandValue_mono fun _ => evalBoolN_ok l)
      (fun _ => operandValue_mono fun _ => evalBoolN_ok r) h
  | .range f lo hi a c, b, h => by rw [evalBoolN] at h; rw [NNode.erase, evalBool]; exact h
  | .inn f items, b, h => by
    rw [evalBoolN] at h; rw [NNode.erase, evalBool]
    obtain ⟨v, h1, h2⟩ := bind_ok_inv h
    obtain ⟨vs, h3, h4⟩ := bind_ok_inv h2
    rw [h1, ok_bind, evalItemsN_ok items h3]; exact h4
  | .array f op known items, b, h => by
    rw [evalBoolN] at h; rw [NNode.erase, evalBool]
    obtain ⟨v, h1, h2⟩ := bind_ok_inv h
    obtain ⟨vs, h3, h4⟩ := bind_ok_inv h2
    rw [h1, ok_bind, evalItemsN_ok items h3, ok_bind]
    cases known with
    | true => exact h4
    | false =>
      simp only [Bool.false_eq_true, if_false] at h4
      split at h4 <;> cases h4
  | .unary dt v, b, h => by rw [evalBoolN] at h; rw [NNode.erase, evalBool]; exact h
  | .and_ l r, b, h => by
    rw [evalBoolN] at h; rw [NNode.erase, evalBool]
    obtain ⟨a, h1, h2⟩ := bind_ok_inv h
    rw [evalBoolN_ok l h1, ok_bind]
    cases a with
    | true => exact evalBoolN_ok r h2
    | false => exact h2
  | .or_ l r, b, h => by
    rw [evalBoolN] at h; rw [NNode.erase, evalBool]
    obtain ⟨a, h1, h2⟩ := bind_ok_inv h
    rw [evalBoolN_ok l h1, ok_bind]
    cases a with
    | true => exact h2
    | false => exact evalBoolN_ok r h2
  | .not_ l, b, h => by
    rw [evalBoolN] at h; rw [NNode.erase, evalBool]
    obtain ⟨a, h1, h2⟩ := bind_ok_inv h
    rw [evalBoolN_ok l h1]; exact h2
  | .field _, b, h => by rw [evalBoolN] at h; rw [NNode.erase, evalBool]; exact h
  | .arith _ _ _, b, h => by rw [evalBoolN] at h; rw [NNode.erase, evalBool]; exact h
  | .neg _, b, h => by rw [evalBoolN] at h; rw [NNode.erase, evalBool]; exact h
  | .func _ _, b, h => by rw [evalBoolN] at h; rw [NNode.erase, evalBool]; exact h
theorem evalItemsN_ok : (ns : List NNode) → {vs : List Value} → evalItemsN env d ns = .ok vs →
    evalItems env d (NNode.eraseAll ns) = .ok vs
  | [], vs, h => by rw [evalItemsN] at h; rw [NNode.eraseAll, evalItems]; exact h
  | n :: ns, vs, h => by
    rw [evalItemsN] at h; rw [NNode.eraseAll, evalItems]
    obtain ⟨v, h1, h2⟩ := bind_ok_inv h
    obtain ⟨ws, h3, h4⟩ := bind_ok_inv h2
    rw [itemValue_mono (fun _ => evalBoolN_ok n) h1, ok_bind, evalItemsN_ok ns h3]; exact h4
end

mutual
theorem evalBoolN_sure : (n : NNode) → n.sure → evalBoolN env d n = evalBool env d n.erase
  | .cmp l r op dt, h => by
    rw [NNode.sure] at h
    rw [evalBoolN, NNode.erase, evalBool, evalBoolN_sure l h.1, evalBoolN_sure r h.2]
  | .range f lo hi a c, h => by rw [evalBoolN, NNode.erase, evalBool]
  | .inn f items, h => by
    rw [NNode.sure] at h
    rw [evalBoolN, NNode.erase, evalBool, evalItemsN_sure items h]
  | .array f op known items, h => by
    rw [NNode.sure] at h
    obtain ⟨h1, h2⟩ := h
    subst h1
    rw [evalBoolN, NNode.erase, evalBool, evalItemsN_sure items h2]; rfl
  | .unary dt v, h => by rw [evalBoolN, NNode.erase, evalBool]
  | .and_ l r, h => by
    rw [NNode.sure] at h
    rw [evalBoolN, NNode.erase, evalBool, evalBoolN_sure l h.1, evalBoolN_sure r h.2]
  | .or_ l r, h => by
    rw [NNode.sure] at h
    rw [evalBoolN, NNode.erase, evalBool, evalBoolN_sure l h.1, evalBoolN_sure r h.2]
  | .not_ l, h => by
    rw [NNode.sure] at h
    rw [evalBoolN, NNode.erase, evalBool, evalBoolN_sure l h]
  | .field _, h => by rw [evalBoolN, NNode.erase, evalBool]
  | .arith _ _ _, h => by rw [evalBoolN, NNode.erase, evalBool]
  | .neg _, h => by rw [evalBoolN, NNode.erase, evalBool]
  | .func _ _, h => by rw [evalBoolN, NNode.erase, evalBool]
theorem evalItemsN_sure : (ns : List NNode) → NNode.sureAll ns →
    evalItemsN env d ns = evalItems env d (NNode.eraseAll ns)
  | [], h => by rw [evalItemsN, NNode.eraseAll, evalItems]
  | n :: ns, h => by
    rw [NNode.sureAll] at h
    rw [evalItemsN, NNode.eraseAll, evalItems, evalBoolN_sure n h.1, evalItemsN_sure ns h.2]
end

end BoolParser
