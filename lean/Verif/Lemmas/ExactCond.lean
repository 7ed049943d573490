import Verif.Lemmas.Exact
/-!
# The listener gets no other condition right
-/

namespace BoolParser
open Spec Relation

variable {sk : JStr → Bool}

/-! ### What walking a condition does to the stack -/

/-- Every item on the new stack is new (`E`) or was on the old one; solid stacks stay solid. -/
def Flow (sk : JStr → Bool) (E : List Item) (st st' : NStack) : Prop :=
  (∀ n ∈ st', ∀ a ∈ n.leaves sk, a ∈ E ∨ ∃ m ∈ st, a ∈ m.leaves sk) ∧ (Solid sk st → Solid sk st')

theorem Flow.refl {E : List Item} (st : NStack) : Flow sk E st st := ⟨fun n hn _ ha => .inr ⟨n, hn, ha⟩, id⟩

theorem Flow.mono {E E' : List Item} {st st' : NStack} (h : Flow sk E st st') (he : ∀ a ∈ E, a ∈ E') :
    Flow sk E' st st' := ⟨fun n hn a ha => (h.1 n hn a ha).imp (he a) id, h.2⟩

theorem Flow.trans {E : List Item} {st st1 st2 : NStack} (h : Flow sk E st st1) (h' : Flow sk E st1 st2) :
    Flow sk E st st2 := by
  refine ⟨?_, fun hs => h'.2 (h.2 hs)⟩
  intro n hn a ha
  rcases h'.1 n hn a ha with h1 | ⟨m, hm, h1⟩
  · exact .inl h1
  · exact h.1 m hm a h1

theorem StackRun.flow {E : List Item} {st st' : NStack} (h : StackRun sk E st st') : Flow sk E st st' :=
  ⟨run_leaves h, run_solid h⟩

/-- Some nodes are taken and one is put back. -/
theorem Flow.push {E : List Item} {st st1 st2 : NStack} {n : Node} (h : Flow sk E st st1) (ps : List Node)
    (hp : st1 = ps ++ st2) (ha : ∀ a ∈ n.leaves sk, a ∈ E ∨ ∃ p ∈ ps, a ∈ p.leaves sk)
    (hn : Solid sk st1 → n.leaves sk ≠ []) (hl : n.isLeaf = false) : Flow sk E st (n :: st2) := by
  refine h.trans ⟨?_, ?_⟩
  · intro m hm a hma
    rcases List.mem_cons.mp hm with rfl | hm
    · rcases ha a hma with h1 | ⟨p, hp', h1⟩
      · exact .inl h1
      · exact .inr ⟨p, by rw [hp]; simp [hp'], h1⟩
    · exact .inr ⟨m, by rw [hp]; simp [hm], hma⟩
  · intro hs m hm
    rcases List.mem_cons.mp hm with rfl | hm
    · exact ⟨hn hs, hl⟩
    · exact hs m (by rw [hp]; simp [hm])

theorem flow_fresh {E R : List Item} (hd : ∀ a ∈ E, a ∉ R) {st st' : NStack} (hr : Flow sk E st st')
    (h : ∀ n ∈ st, ¬ HasItem sk R n) : ∀ n ∈ st', ¬ HasItem sk R n := by
  rintro n hn ⟨a, ha, hR⟩
  rcases hr.1 n hn a ha with hE | ⟨m, hm, h'⟩
  · exact hd a hE hR
  · exact h m hm ⟨a, h', hR⟩

/-- An operand of a comparison with the items `E`; a `real` one has items. -/
def SideOk (df : Option JStr) (sk : JStr → Bool) (t : Tree) (E : List Item) (real : Prop) : Prop :=
  (∀ s s', walk df t s = .ok s' → Flow sk E s.stack s'.stack) ∧
  ∀ st n st', mapNode df t st = .ok (n, st') → ∃ ps, st = ps ++ st' ∧
    (∀ a ∈ n.leaves sk, a ∈ E ∨ ∃ p ∈ ps, a ∈ p.leaves sk) ∧ (real → Solid sk st → n.leaves sk ≠ [])

theorem side_arith (df : Option JStr) {e : Arith} (hv : e.Valid) (hc : Clear sk e.items) :
    SideOk df sk e.tree e.items True := by
  refine ⟨fun s s' h => (walk_run df e hv hc h).flow, ?_⟩
  intro st n st' h
  obtain ⟨ps, e1, e2, e3, e4, _⟩ := map_takes df e hv hc h
  refine ⟨ps, e1, e3, ?_⟩
  intro _ hs
  rcases e4 with hp | ⟨a, ha, _⟩
  · cases ps with
    | nil => exact absurd rfl hp
    | cons p ps =>
      obtain ⟨a, ha⟩ := List.exists_mem_of_ne_nil _ (hs p (by rw [e1]; simp)).1
      exact List.ne_nil_of_mem (inside_leaves (e2 p (by simp)) a ha)
  · exact List.ne_nil_of_mem ha

theorem side_word (df : Option JStr) {t : Token} {em : Bool} {n : Node} (h : mapTypes df t em = .ok n)
    (hn : n.leaves sk = []) : SideOk df sk (.types t em) [] False := by
  refine ⟨?_, ?_⟩
  · intro s s' h'
    rw [walk] at h'
    injection h' with h'
    rw [← h']; exact .refl _
  · intro st m st' h'
    rw [mapNode, h, ok_bind] at h'
    injection h' with h'; injection h' with h1 h2
    subst h1; subst h2
    exact ⟨[], rfl, by rw [hn]; simp, False.elim⟩

/-- How a comparison can come about. -/
theorem cmp_inv {df : Option JStr} {op : CmpOp} {l r : Tree} {st st' : NStack} {n : Node}
    (h : mapNode df (.cmp op l r) st = .ok (n, st')) :
    (useStack st l r = true ∧ l.isTypes = true ∧ ∃ a b, mapNode df l st = .ok (a, b :: st') ∧
      n = .cmp a b op l.startType) ∨
    (useStack st l r = true ∧ l.isTypes = false ∧ r.isTypes = true ∧ ∃ a b, mapNode df r st = .ok (b, a :: st') ∧
      n = .cmp a b op r.startType) ∨
    ((useStack st l r = false ∨ (l.isTypes = false ∧ r.isTypes = false)) ∧ ∃ a b st1, mapNode df r st = .ok (b, st1) ∧
      mapNode df l st1 = .ok (a, st') ∧ n = .cmp a b op r.startType) := by
  rw [mapNode] at h
  split at h
  · rename_i hc
    rw [Bool.and_eq_true] at hc
    obtain ⟨⟨a, st1⟩, h1, h2⟩ := bind_ok_inv h
    simp only at h2
    obtain ⟨⟨b, st2⟩, h3, h4⟩ := bind_ok_inv h2
    injection h4 with h4; injection h4 with h4 h5
    subst h5
    exact .inl ⟨hc.1, hc.2, a, b, by rw [h1, popN_inv h3], h4.symm⟩
  · rename_i hc
    split at h
    · rename_i hc'
      rw [Bool.and_eq_true] at hc'
      obtain ⟨⟨b, st1⟩, h1, h2⟩ := bind_ok_inv h
      simp only at h2
      obtain ⟨⟨a, st2⟩, h3, h4⟩ := bind_ok_inv h2
      injection h4 with h4; injection h4 with h4 h5
      subst h5
      exact .inr (.inl ⟨hc'.1, by simpa [hc'.1] using hc, hc'.2, a, b, by rw [h1, popN_inv h3], h4.symm⟩)
    · rename_i hc'
      obtain ⟨⟨b, st1⟩, h1, h2⟩ := bind_ok_inv h
      simp only at h2
      obtain ⟨⟨a, st2⟩, h3, h4⟩ := bind_ok_inv h2
      injection h4 with h4; injection h4 with h4 h5
      subst h5
      refine .inr (.inr ⟨?_, a, b, st1, h1, h3, h4.symm⟩)
      cases hu : useStack st l r with
      | false => exact .inl rfl
      | true => exact .inr ⟨by simpa [hu] using hc, by simpa [hu] using hc'⟩

theorem cmp_flow {df : Option JStr} {op : CmpOp} {l r : Tree} {El Er : List Item} {rl rr : Prop}
    (hl : SideOk df sk l El rl) (hr : SideOk df sk r Er rr) (hreal : rl ∨ rr) {s s' : LState}
    (h : walk df (.cmp op l r) s = .ok s') :
    Flow sk (El ++ Er) s.stack s'.stack ∧ ∃ n st, s'.stack = n :: st ∧ n.isArithNode = false := by
  rw [walk] at h
  obtain ⟨s1, h1, h2⟩ := bind_ok_inv h
  obtain ⟨s2, h3, h4⟩ := bind_ok_inv h2
  obtain ⟨n, st, h5, h6⟩ := exitMapped_inv h4
  have f1 : Flow sk (El ++ Er) s.stack s1.stack := (hl.1 s s1 h1).mono (fun a ha => by simp [ha])
  have f2 : Flow sk (El ++ Er) s1.stack s2.stack := (hr.1 s1 s2 h3).mono (fun a ha => by simp [ha])
  have f := f1.trans f2
  rw [h6]
  rcases cmp_inv h5 with ⟨-, -, a, b, h7, rfl⟩ | ⟨-, -, -, a, b, h7, rfl⟩ | ⟨-, a, b, st1, h7, h8, rfl⟩
  · obtain ⟨ps, e1, e2, -⟩ := hl.2 _ _ _ h7
    refine ⟨f.push (ps ++ [b]) (by rw [e1]; simp) ?_ ?_ rfl, _, _, rfl, rfl⟩
    · intro x hx
      rw [Node.leaves, List.mem_append] at hx
      rcases hx with hx | hx
      · rcases e2 x hx with h | ⟨p, hp, h⟩
        · exact .inl (by simp [h])
        · exact .inr ⟨p, by simp [hp], h⟩
      · exact .inr ⟨b, by simp, hx⟩
    · intro hs
      rw [Node.leaves]
      intro e; exact (hs b (by rw [e1]; simp)).1 (List.append_eq_nil_iff.mp e).2
  · obtain ⟨ps, e1, e2, -⟩ := hr.2 _ _ _ h7
    refine ⟨f.push (ps ++ [a]) (by rw [e1]; simp) ?_ ?_ rfl, _, _, rfl, rfl⟩
    · intro x hx
      rw [Node.leaves, List.mem_append] at hx
      rcases hx with hx | hx
      · exact .inr ⟨a, by simp, hx⟩
      · rcases e2 x hx with h | ⟨p, hp, h⟩
        · exact .inl (by simp [h])
        · exact .inr ⟨p, by simp [hp], h⟩
    · intro hs
      rw [Node.leaves]
      intro e; exact (hs a (by rw [e1]; simp)).1 (List.append_eq_nil_iff.mp e).1
  · obtain ⟨ps, e1, e2, e3⟩ := hr.2 _ _ _ h7
    obtain ⟨qs, g1, g2, g3⟩ := hl.2 _ _ _ h8
    refine ⟨f.push (ps ++ qs) (by rw [e1, g1]; simp) ?_ ?_ rfl, _, _, rfl, rfl⟩
    · intro x hx
      rw [Node.leaves, List.mem_append] at hx
      rcases hx with hx | hx
      · rcases g2 x hx with h | ⟨p, hp, h⟩
        · exact .inl (by simp [h])
        · exact .inr ⟨p, by simp [hp], h⟩
      · rcases e2 x hx with h | ⟨p, hp, h⟩
        · exact .inl (by simp [h])
        · exact .inr ⟨p, by simp [hp], h⟩
    · intro hs
      rw [Node.leaves]
      intro e
      rcases hreal with hreal | hreal
      · exact g3 hreal (fun p hp => hs p (by rw [e1]; simp [hp])) (List.append_eq_nil_iff.mp e).1
      · exact e3 hreal hs (List.append_eq_nil_iff.mp e).2

/-- The default field is not counted if operands are omitted. -/
def Skips (df : Option JStr) (sk : JStr → Bool) (c : Cond) : Prop :=
  sk j!"null" = true ∧ (c.usesDefault = true → ∀ f, df = some f → sk f = true)

theorem dflt_word (df : Option JStr) (o : CmpOp) : mapTypes df (cmpTok o) true = .ok (.field df) := by
  cases o <;> rfl

theorem cond_flow (df : Option JStr) : (c : Cond) → c.Valid → Clear sk c.items → Skips df sk c → ∀ {s s'},
    walk df c.tree s = .ok s' →
    Flow sk c.items s.stack s'.stack ∧ ∃ n st, s'.stack = n :: st ∧ n.isArithNode = false
  | .cmp o l r, hv, hc, hk, s, s', h => by
    rw [Cond.tree] at h
    exact cmp_flow (side_arith df hv.1 (fun f hf => hc f (by simp [Cond.items, hf])))
      (side_arith df hv.2.1 (fun f hf => hc f (by simp [Cond.items, hf]))) (.inl trivial) h
  | .cmpD o r, hv, hc, hk, s, s', h => by
    rw [Cond.tree] at h
    refine cmp_flow (El := []) (side_word df (dflt_word df o) ?_) (side_arith df hv.1 hc) (.inr trivial) h
    cases df with
    | none => rfl
    | some f => simp [Node.leaves, hk.2 rfl f rfl]
  | .isNull f eq, hv, hc, hk, s, s', h => by
    rw [Cond.tree] at h
    exact cmp_flow (Er := []) (side_arith (e := .field f) df hv hc)
      (side_word df (n := .field (some j!"null")) rfl (by rw [Node.leaves, hk.1]; rfl)) (.inl trivial) h
  | .range f lo hi, hv, hc, hk, s, s', h => by
    rw [Cond.tree, walk] at h
    obtain ⟨n, st, h5, h6⟩ := exitMapped_inv h
    rw [mapNode] at h5
    obtain ⟨a, h1, h2⟩ := bind_ok_inv h5
    obtain ⟨b, h3, h4⟩ := bind_ok_inv h2
    injection h4 with h4; injection h4 with h4 h7
    subst h4; subst h7
    rw [h6]
    refine ⟨(Flow.refl _).push [] rfl ?_ ?_ rfl, _, _, rfl, rfl⟩
    · intro a ha; rw [Node.leaves] at ha; exact .inl ha
    · intro _; rw [Node.leaves]; simp
  | .isIn f ng es, hv, hc, hk, s, s', h => by
    have hces : Clear sk (Arith.itemsAll es) := fun f hf => hc f (by simp [Cond.items, hf])
    rw [Cond.tree, walk] at h
    obtain ⟨s1, h1, h2⟩ := bind_ok_inv h
    obtain ⟨n, st, h5, h6⟩ := exitMapped_inv h2
    rw [mapNode] at h5
    obtain ⟨⟨ns, st1⟩, h7, h8⟩ := bind_ok_inv h5
    injection h8 with h8; injection h8 with h8 h9
    subst h8; subst h9
    rw [h6]
    obtain ⟨ps, e1, e2, e3, e4, e5⟩ := maps_take df es hv.2.2 hces h7
    have f1 : Flow sk (Cond.isIn f ng es).items s.stack s1.stack :=
      (walks_run df es hv.2.2 hces h1).flow.mono (fun a ha => by simp [Cond.items, ha])
    have key : ∀ a ∈ (Node.inn f ns).leaves sk, a ∈ (Cond.isIn f ng es).items ∨ ∃ p ∈ ps, a ∈ p.leaves sk := by
      intro a ha
      rw [Node.leaves, List.mem_cons] at ha
      rcases ha with rfl | ha
      · exact .inl (by simp [Cond.items])
      · obtain ⟨n, hn, ha⟩ := mem_leavesAll.mp ha
        exact (e3 n hn a ha).imp (fun h => by simp [Cond.items, h]) id
    cases ng with
    | true => exact ⟨f1.push ps e1 (by rw [if_pos rfl, Node.leaves]; exact key) (by intro _; rw [if_pos rfl, Node.leaves, Node.leaves]; simp) rfl, _, _, rfl, rfl⟩
    | false => exact ⟨f1.push ps e1 (by rw [if_neg (by simp)]; exact key) (by intro _; rw [if_neg (by simp), Node.leaves]; simp) rfl, _, _, rfl, rfl⟩
  | .contains f o es, hv, hc, hk, s, s', h => by
    have hces : Clear sk (Arith.itemsAll es) := fun f hf => hc f (by simp [Cond.items, hf])
    rw [Cond.tree, walk] at h
    obtain ⟨s1, h1, h2⟩ := bind_ok_inv h
    unfold exitArray at h2
    obtain ⟨⟨ns, st1⟩, h7, h8⟩ := bind_ok_inv h2
    injection h8 with h8
    rw [← h8]
    obtain ⟨ps, e1, e2, e3, e4, e5⟩ := maps_take df es hv.2.2 hces h7
    have f1 : Flow sk (Cond.contains f o es).items s.stack s1.stack :=
      (walks_run df es hv.2.2 hces h1).flow.mono (fun a ha => by simp [Cond.items, ha])
    refine ⟨f1.push ps e1 ?_ (by intro _; rw [Node.leaves]; simp) rfl, _, _, rfl, rfl⟩
    intro a ha
    rw [Node.leaves, List.mem_cons] at ha
    rcases ha with rfl | ha
    · exact .inl (by simp [Cond.items, fieldTok])
    · obtain ⟨n, hn, ha⟩ := mem_leavesAll.mp ha
      exact (e3 n hn a ha).imp (fun h => by simp [Cond.items, h]) id
  | .notField f, hv, hc, hk, s, s', h => by
    rw [Cond.tree, walk] at h
    obtain ⟨s1, h1, h2⟩ := bind_ok_inv h
    rw [walk] at h1
    injection h1 with h1
    subst h1
    unfold exitNot at h2
    cases hst : s.stack with
    | nil =>
      simp only [hst] at h2
      have hcv : convertValue (fieldTok f).text (tokType (fieldTok f)) = .ok (.str f) := field_conv hv
      rw [hcv, ok_bind] at h2
      injection h2 with h2
      rw [← h2]
      refine ⟨(Flow.refl _).push [] rfl ?_ ?_ rfl, _, _, rfl, rfl⟩
      · intro a ha; rw [Node.leaves, Node.leaves] at ha; exact .inl ha
      · intro _; rw [Node.leaves, Node.leaves]; simp
    | cons n st =>
      simp only [hst] at h2
      injection h2 with h2
      rw [← h2]
      refine ⟨(Flow.refl _).push [n] rfl ?_ ?_ rfl, _, _, rfl, rfl⟩
      · intro a ha; rw [Node.leaves] at ha; exact .inr ⟨n, by simp, ha⟩
      · intro hs; rw [Node.leaves]; exact (hs n (by simp)).1
  | .not c, hv, hc, hk, s, s', h => by
    rw [Cond.tree, walk] at h
    obtain ⟨s1, h1, h2⟩ := bind_ok_inv h
    obtain ⟨f1, n, st, e1, e2⟩ := cond_flow df c hv hc hk h1
    unfold exitNot at h2
    simp only [e1] at h2
    injection h2 with h2
    rw [← h2]
    refine ⟨f1.push [n] (by rw [e1]; rfl) ?_ ?_ rfl, _, _, rfl, rfl⟩
    · intro a ha; rw [Node.leaves] at ha; exact .inr ⟨n, by simp, ha⟩
    · intro hs; rw [Node.leaves]; exact (hs n (by rw [e1]; simp)).1
  | .group c, hv, hc, hk, s, s', h => by
    rw [Cond.tree, walk] at h
    exact cond_flow df c hv hc hk h
  | .conn b l r, hv, hc, hk, s, s', h => by
    rw [Cond.tree, walk] at h
    obtain ⟨s1, h1, h2⟩ := bind_ok_inv h
    obtain ⟨s2, h3, h4⟩ := bind_ok_inv h2
    have f1 := (cond_flow df l hv.1 (fun f hf => hc f (by simp [Cond.items, hf]))
      ⟨hk.1, fun hu => hk.2 (by simp [Cond.usesDefault, hu])⟩ h1).1
    have f2 := (cond_flow df r hv.2 (fun f hf => hc f (by simp [Cond.items, hf]))
      ⟨hk.1, fun hu => hk.2 (by simp [Cond.usesDefault, hu])⟩ h3).1
    have f : Flow sk (Cond.conn b l r).items s.stack s2.stack :=
      (f1.mono (fun a ha => by simp [Cond.items, ha])).trans (f2.mono (fun a ha => by simp [Cond.items, ha]))
    unfold exitBin at h4
    split at h4
    · rename_i y x st hst
      injection h4 with h4
      rw [← h4]
      refine ⟨f.push [y, x] (by rw [hst]; rfl) ?_ ?_ (by cases b <;> rfl), _, _, rfl, by cases b <;> rfl⟩
      · intro a ha
        have : a ∈ x.leaves sk ++ y.leaves sk := by cases b <;> exact ha
        rcases List.mem_append.mp this with ha | ha
        · exact .inr ⟨x, by simp, ha⟩
        · exact .inr ⟨y, by simp, ha⟩
      · intro hs
        have := (hs x (by rw [hst]; simp)).1
        have e : (if b = true then Node.and_ x y else .or_ x y).leaves sk = x.leaves sk ++ y.leaves sk := by cases b <;> rfl
        rw [e]; intro e'; exact this (List.append_eq_nil_iff.mp e').1
    · cases h4

/-! ### The nodes of a condition -/

theorem cond_leaves (df : Option JStr) : (c : Cond) → Clear sk c.items → Skips df sk c → (c.node df).leaves sk = c.items
  | .cmp o l r, hc, _ => by
    rw [Cond.node, Cond.items, Node.leaves, arith_leaves l (fun f hf => hc f (by simp [Cond.items, hf])),
      arith_leaves r (fun f hf => hc f (by simp [Cond.items, hf]))]
  | .cmpD o r, hc, hk => by
    rw [Cond.node, Cond.items, Node.leaves, arith_leaves r hc]
    cases df with
    | none => rfl
    | some f => simp [Node.leaves, hk.2 rfl f rfl]
  | .isNull f eq, hc, hk => by
    have := hc f (by simp [Cond.items])
    rw [Cond.node, Cond.items, Node.leaves, Node.leaves, Node.leaves, hk.1, this]; rfl
  | .range f lo hi, _, _ => rfl
  | .isIn f ng es, hc, _ => by
    have := arith_leavesAll es (fun f hf => hc f (by simp [Cond.items, hf]))
    cases ng with
    | true => rw [Cond.node, if_pos rfl, Node.leaves, Node.leaves, this]; rfl
    | false => rw [Cond.node, if_neg (by simp), Node.leaves, this]; rfl
  | .contains f o es, hc, _ => by
    rw [Cond.node, Node.leaves, arith_leavesAll es (fun f hf => hc f (by simp [Cond.items, hf]))]; rfl
  | .notField f, _, _ => rfl
  | .not c, hc, hk => by rw [Cond.node, Node.leaves]; exact cond_leaves df c hc hk
  | .group c, hc, hk => by rw [Cond.node]; exact cond_leaves df c hc hk
  | .conn b l r, hc, hk => by
    have h1 := cond_leaves df l (fun f hf => hc f (by simp [Cond.items, hf]))
      ⟨hk.1, fun hu => hk.2 (by simp [Cond.usesDefault, hu])⟩
    have h2 := cond_leaves df r (fun f hf => hc f (by simp [Cond.items, hf]))
      ⟨hk.1, fun hu => hk.2 (by simp [Cond.usesDefault, hu])⟩
    cases b <;> simp [Cond.node, Node.leaves, h1, h2, Cond.items]

theorem cond_items_ne : (c : Cond) → c.Valid → c.items ≠ []
  | .cmp o l r, hv => fun e => items_ne l hv.1 (List.append_eq_nil_iff.mp e).1
  | .cmpD o r, hv => items_ne r hv.1
  | .isNull f eq, _ => by simp [Cond.items]
  | .range f lo hi, _ => by simp [Cond.items]
  | .isIn f ng es, _ => by simp [Cond.items]
  | .contains f o es, _ => by simp [Cond.items]
  | .notField f, _ => by simp [Cond.items]
  | .not c, hv => cond_items_ne c hv
  | .group c, hv => cond_items_ne c hv
  | .conn b l r, hv => fun e => cond_items_ne l hv.1 (List.append_eq_nil_iff.mp e).1

theorem cmp_pushes {df : Option JStr} {op : CmpOp} {l r : Tree} {n : Node} (h : n ∈ pushes df (.cmp op l r)) :
    n = nodeOf df (.cmp op l r) ∨ n ∈ pushes df l ∨ n ∈ pushes df r := by
  rw [pushes] at h
  rcases List.mem_cons.mp h with h | h
  · exact .inl h
  · right
    split at h
    · rcases List.mem_append.mp h with h | h
      · exact .inr (List.mem_of_mem_tail h)
      · exact .inl (List.mem_of_mem_tail h)
    · rcases List.mem_append.mp h with h | h
      · exact .inr h
      · exact .inl h

theorem cond_pushes (df : Option JStr) : (c : Cond) → c.Valid → Clear sk c.items → Skips df sk c →
    ∀ n ∈ pushes df c.tree, ∀ a ∈ n.leaves sk, a ∈ c.items
  | .cmp o l r, hv, hc, hk => by
    have hl := cond_leaves df _ hc hk
    have hnd := cond_node df _ hv
    intro n hn a ha
    rw [Cond.tree] at hnd hn
    rcases cmp_pushes hn with rfl | hn | hn
    · rw [hnd, hl] at ha; exact ha
    · exact List.mem_append_left _ (pushes_items df l hv.1 (fun f hf => hc f (by simp [Cond.items, hf])) n hn a ha)
    · exact List.mem_append_right _ (pushes_items df r hv.2.1 (fun f hf => hc f (by simp [Cond.items, hf])) n hn a ha)
  | .cmpD o r, hv, hc, hk => by
    have hl := cond_leaves df _ hc hk
    have hnd := cond_node df _ hv
    intro n hn a ha
    rw [Cond.tree] at hnd hn
    rcases cmp_pushes hn with rfl | hn | hn
    · rw [hnd, hl] at ha; exact ha
    · rw [pushes] at hn; cases hn
    · exact pushes_items df r hv.1 hc n hn a ha
  | .isNull f eq, hv, hc, hk => by
    have hl := cond_leaves df _ hc hk
    have hnd := cond_node df _ hv
    intro n hn a ha
    rw [Cond.tree] at hnd hn
    rcases cmp_pushes hn with rfl | hn | hn
    · rw [hnd, hl] at ha; exact ha
    · rw [pushes] at hn; cases hn
    · rw [pushes] at hn; cases hn
  | .range f lo hi, hv, hc, hk => by
    have hl := cond_leaves df _ hc hk
    have hnd := cond_node df _ hv
    intro n hn a ha
    rw [Cond.tree] at hnd
    rw [Cond.tree, pushes, hnd, List.mem_singleton] at hn
    rw [hn, hl] at ha; exact ha
  | .isIn f ng es, hv, hc, hk => by
    have hl := cond_leaves df _ hc hk
    have hnd := cond_node df _ hv
    intro n hn a ha
    rw [Cond.tree] at hnd
    rw [Cond.tree, pushes, hnd] at hn
    rcases List.mem_cons.mp hn with rfl | hn
    · rw [hl] at ha; exact ha
    · exact List.mem_cons_of_mem _ (pushesAll_items df es hv.2.2 (fun f hf => hc f (by simp [Cond.items, hf])) n hn a ha)
  | .contains f o es, hv, hc, hk => by
    have hl := cond_leaves df _ hc hk
    have hnd := cond_node df _ hv
    intro n hn a ha
    rw [Cond.tree] at hnd
    rw [Cond.tree, pushes, hnd] at hn
    rcases List.mem_cons.mp hn with rfl | hn
    · rw [hl] at ha; exact ha
    · exact List.mem_cons_of_mem _ (pushesAll_items df es hv.2.2 (fun f hf => hc f (by simp [Cond.items, hf])) n hn a ha)
  | .notField f, hv, hc, hk => by
    have hl := cond_leaves df _ hc hk
    have hnd := cond_node df _ hv
    intro n hn a ha
    rw [Cond.tree] at hnd
    rw [Cond.tree, pushes, hnd] at hn
    rcases List.mem_cons.mp hn with rfl | hn
    · rw [hl] at ha; exact ha
    · rw [pushes] at hn; cases hn
  | .not c, hv, hc, hk => by
    have hl := cond_leaves df _ hc hk
    have hnd := cond_node df _ hv
    intro n hn a ha
    rw [Cond.tree] at hnd
    rw [Cond.tree, pushes, hnd] at hn
    rcases List.mem_cons.mp hn with rfl | hn
    · rw [hl] at ha; exact ha
    · exact cond_pushes df c hv hc hk n (List.mem_of_mem_tail hn) a ha
  | .group c, hv, hc, hk => by
    rw [Cond.tree, pushes]; exact cond_pushes df c hv hc hk
  | .conn b l r, hv, hc, hk => by
    have hl := cond_leaves df _ hc hk
    have hnd := cond_node df _ hv
    intro n hn a ha
    rw [Cond.tree] at hnd
    rw [Cond.tree, pushes, hnd] at hn
    rcases List.mem_cons.mp hn with rfl | hn
    · rw [hl] at ha; exact ha
    · rcases List.mem_append.mp hn with hn | hn
      · exact List.mem_append_right _ (cond_pushes df r hv.2 (fun f hf => hc f (by simp [Cond.items, hf]))
          ⟨hk.1, fun hu => hk.2 (by simp [Cond.usesDefault, hu])⟩ n (List.mem_of_mem_tail hn) a ha)
      · exact List.mem_append_left _ (cond_pushes df l hv.1 (fun f hf => hc f (by simp [Cond.items, hf]))
          ⟨hk.1, fun hu => hk.2 (by simp [Cond.usesDefault, hu])⟩ n (List.mem_of_mem_tail hn) a ha)

theorem call_pushes (df : Option JStr) {e : Arith} (h : Cond.isCall e = true) : pushes df e.tree ≠ [] := by
  cases e with
  | call f args => rw [Arith.tree, pushes]; simp
  | _ => cases h

theorem cond_tail (df : Option JStr) : (c : Cond) → ∀ left, c.readable left = true → (pushes df c.tree).tail = [] →
    c.tidy = true
  | .cmp o l r, left, h, hp => by
    rw [Cond.tree, pushes, List.tail_cons, isAtom_isTypes, isAtom_isTypes] at hp
    rw [Cond.readable] at h
    rw [Cond.tidy]
    by_cases hl : l.isAtom = true
    · have tl : l.tidy = true := by cases l <;> first | rfl | cases hl
      rw [hl, Bool.true_or, if_pos rfl] at hp
      obtain ⟨h1, h2⟩ := List.append_eq_nil_iff.mp hp
      by_cases hr : r.isAtom = true
      · have tr : r.tidy = true := by cases r <;> first | rfl | cases hr
        rw [hl, tl, tr]; rfl
      · rw [if_neg (by simp [hr]), if_pos hl] at h
        rw [hl, tl, tail_tidy df r _ h h1]; rfl
    · by_cases hr : r.isAtom = true
      · have tr : r.tidy = true := by cases r <;> first | rfl | cases hr
        rw [hr, Bool.or_true, if_pos rfl] at hp
        obtain ⟨h1, h2⟩ := List.append_eq_nil_iff.mp hp
        rw [if_neg (by simp [hl]), if_neg hl, if_pos hr] at h
        rw [hr, tr, tail_tidy df l _ h h2]; simp
      · exfalso
        rw [if_neg (by simp [hl, hr])] at hp
        rw [if_neg (by simp [hl]), if_neg hl, if_neg hr, Bool.and_eq_true] at h
        exact call_pushes df h.1 (List.append_eq_nil_iff.mp hp).2
  | .cmpD o r, left, h, hp => by
    rw [Cond.tree, pushes, List.tail_cons, show (Tree.types (cmpTok o) true).isTypes = true from rfl, Bool.true_or, if_pos rfl] at hp
    rw [Cond.readable] at h
    rw [Cond.tidy]
    by_cases hr : r.isAtom = true
    · cases r <;> first | rfl | cases hr
    · rw [if_neg hr] at h
      exact tail_tidy df r _ h (List.append_eq_nil_iff.mp hp).1
  | .isNull f eq, _, _, _ => rfl
  | .range f lo hi, _, _, _ => rfl
  | .isIn f ng es, left, h, hp => by
    rw [Cond.tree, pushes, List.tail_cons] at hp
    rw [Cond.tidy]; exact simples_pushes df h hp
  | .contains f o es, left, h, hp => by
    rw [Cond.tree, pushes, List.tail_cons] at hp
    rw [Cond.tidy]; exact simples_pushes df h hp
  | .notField f, _, _, _ => rfl
  | .not c, left, h, hp => by
    rw [Cond.tree, pushes, List.tail_cons] at hp
    rw [Cond.tidy]; exact cond_tail df c left h hp
  | .group c, left, h, hp => by
    rw [Cond.tree, pushes] at hp
    rw [Cond.tidy]; exact cond_tail df c left h hp
  | .conn b l r, left, h, hp => by
    rw [Cond.readable, Bool.and_eq_true, Bool.and_eq_true] at h
    rw [Cond.tree, pushes, List.tail_cons] at hp
    obtain ⟨h1, h2⟩ := List.append_eq_nil_iff.mp hp
    rw [Cond.tidy, cond_tail df l left h.1 h2, h.2.2]; rfl

/-! ### Comparisons -/

theorem use_left {st : NStack} {l r : Tree} {left : Cond.Left} (h : useStack st l r = false)
    (ht : topOf st = topLeft left) : (left != .membership) = true := by
  cases st with
  | nil => cases left <;> first | rfl | cases ht
  | cons n st =>
    rw [useStack] at h
    simp only [Bool.or_eq_false_iff, Bool.not_eq_false'] at h
    have hn := h.2
    cases n <;> first | (cases hn; done) | (cases left <;> first | rfl | cases ht)

theorem use_compound {st : NStack} {n : Node} {l r : Tree} (h : n.isCompound = true) : useStack (n :: st) l r = true := by
  rw [useStack]
  cases n <;> first | (cases h; done) | simp [Node.isCmpOrBool]

/-- A compound operand that can be mapped is on the stack. -/
theorem walk_top {df : Option JStr} {e : Arith} (ha : e.isAtom = false) {s s' : LState} (h : walk df e.tree s = .ok s')
    {st st' : NStack} {n : Node} (hm : mapNode df e.tree st = .ok (n, st')) :
    ∃ m st1, s'.stack = m :: st1 ∧ m.isCompound = true := by
  cases e with
  | field f => cases ha
  | lit l => cases ha
  | group e => rw [Arith.tree, mapNode] at hm; cases hm
  | neg e => rw [Arith.tree, mapNode] at hm; cases hm
  | op o l r =>
    rw [Arith.tree, walk] at h
    obtain ⟨s1, h1, h2⟩ := bind_ok_inv h
    obtain ⟨s2, h3, h4⟩ := bind_ok_inv h2
    obtain ⟨m, st1, h5, h6⟩ := exitMapped_inv h4
    exact ⟨m, st1, h6, map_compound (e := .op o l r) rfl h5⟩
  | call f args =>
    rw [Arith.tree, walk] at h
    obtain ⟨s1, h1, h2⟩ := bind_ok_inv h
    obtain ⟨m, st1, h5, h6⟩ := exitMapped_inv h2
    exact ⟨m, st1, h6, map_compound (e := .call f args) rfl h5⟩

/-- A comparison whose left operand is a name, a literal or omitted. -/
theorem cmp_word_exact {df : Option JStr} {o : CmpOp} {lt : Tree} {r : Arith} (hlt : lt.isTypes = true)
    (hlw : ∀ s s', walk df lt s = .ok s' → s'.stack = s.stack) (hlm : ∀ st n st', mapNode df lt st = .ok (n, st') → st' = st)
    (hv : r.Valid) (hc : Clear sk r.items) (hn : r.items.Nodup) {s s' : LState} {st : NStack} {left : Cond.Left}
    (hs : Solid sk s.stack) (hf : ∀ n ∈ s.stack, ¬ HasItem sk r.items n) (ht : topOf s.stack = topLeft left)
    (h : walk df (.cmp o lt r.tree) s = .ok s') {a : Node} {ty : DataType} (htop : s'.stack = .cmp a r.node o ty :: st) :
    (if r.isAtom then left != .membership else r.readable false) = true := by
  rw [walk] at h
  obtain ⟨s1, h1, h2⟩ := bind_ok_inv h
  obtain ⟨s2, h3, h4⟩ := bind_ok_inv h2
  obtain ⟨n, st0, h5, h6⟩ := exitMapped_inv h4
  rw [h6] at htop
  injection htop with hn0 _
  subst hn0
  have e1 := hlw _ _ h1
  rcases cmp_inv h5 with ⟨-, -, a', b, h7, h8⟩ | ⟨-, hlt', -, a', b, h7, h8⟩ | ⟨hu, a', b, st1, h7, h8, h9⟩
  · injection h8 with _ h8 _ _
    subst h8
    have h9 := hlm _ _ _ h7
    by_cases hr : r.isAtom = true
    · rw [walk_atom hr h3, e1] at h9
      have := (hs r.node (by rw [← h9]; simp)).2
      rw [atom_leaf hr] at this; cases this
    · rw [if_neg hr]
      have := walk_exact df r (by simpa using hr) hv hc hn (s := s1) (by rw [e1]; exact hs) (by rw [e1]; exact hf) h3 h9.symm
      rw [e1, ht, topLeft_arith] at this
      exact this
  · rw [hlt] at hlt'; cases hlt'
  · have hu' : useStack s2.stack lt r.tree = false := by
      rcases hu with hu | hu
      · exact hu
      · rw [hlt] at hu; cases hu.1
    by_cases hr : r.isAtom = true
    · rw [if_pos hr]
      rw [walk_atom hr h3, e1] at hu'
      exact use_left hu' ht
    · exfalso
      obtain ⟨m, st2, h10, h11⟩ := walk_top (by simpa using hr) h3 h7
      rw [h10, use_compound h11] at hu'
      cases hu'

theorem level_call {e : Arith} (hl : 13 ≤ e.level) (ha : e.isAtom = false) (h : e.simpleArg = true) :
    Cond.isCall e = true := by
  cases e with
  | field f => cases ha
  | lit l => cases ha
  | group e => simp [Arith.simpleArg] at h
  | neg e => simp [Arith.simpleArg] at h
  | op o l r => exfalso; cases o <;> simp [Arith.level, strength] at hl
  | call f args => rfl

theorem call_readable {e : Arith} (hc : Cond.isCall e = true) (h : e.simpleArg = true) (a : Bool) : e.readable a = true := by
  cases e with
  | call f args => rw [Arith.readable]; rw [Arith.simpleArg] at h; exact h
  | _ => cases hc

theorem topLeft_inj {a b : Cond.Left} (h : topLeft a = topLeft b) : a = b := by
  cases a <;> cases b <;> first | rfl | cases h

/-- **Only readable conditions are built right.** -/
theorem cond_exact (df : Option JStr) : (c : Cond) → c.Valid → c.Grouped → Clear sk c.items → Skips df sk c → c.items.Nodup →
    ∀ {s s' st left}, Solid sk s.stack → (∀ n ∈ s.stack, ¬ HasItem sk c.items n) → topOf s.stack = topLeft left →
    walk df c.tree s = .ok s' → s'.stack = c.node df :: st → c.readable left = true
  | .cmp o l r, hv, hg, hc, hk, hn, s, s', st, left, hs, hf, ht, h, htop => by
    have hcl : Clear sk l.items := fun f hf => hc f (by simp [Cond.items, hf])
    have hcr : Clear sk r.items := fun f hf => hc f (by simp [Cond.items, hf])
    rw [Cond.items] at hn
    have hd := items_disjoint hn
    have hnl := (List.nodup_append.mp hn).1
    have hnr := (List.nodup_append.mp hn).2.1
    have fl : ∀ n ∈ s.stack, ¬ HasItem sk l.items n := fun n hn' ⟨a, ha, hR⟩ => hf n hn' ⟨a, ha, by simp [Cond.items, hR]⟩
    have fr : ∀ n ∈ s.stack, ¬ HasItem sk r.items n := fun n hn' ⟨a, ha, hR⟩ => hf n hn' ⟨a, ha, by simp [Cond.items, hR]⟩
    rw [Cond.tree] at h
    rw [Cond.node] at htop
    rw [Cond.readable]
    by_cases hl : l.isAtom = true
    · have := cmp_word_exact (lt := l.tree) (r := r) (by rw [isAtom_isTypes]; exact hl) (fun s s' => walk_atom hl) (by
        intro st n st' hm
        rw [atom_map hv.1 hl] at hm
        injection hm with hm; injection hm with _ hm
        exact hm.symm) hv.2.1 hcr hnr hs fr ht h htop
      by_cases hr : r.isAtom = true
      · rw [if_pos hr] at this
        rw [if_pos (by simp [hl, hr])]; exact this
      · rw [if_neg hr] at this
        rw [if_neg (by simp [hr]), if_pos hl]; exact this
    · rw [if_neg (by simp [hl]), if_neg hl]
      rw [walk] at h
      obtain ⟨s1, h1, h2⟩ := bind_ok_inv h
      obtain ⟨s2, h3, h4⟩ := bind_ok_inv h2
      obtain ⟨n, st0, h5, h6⟩ := exitMapped_inv h4
      rw [h6] at htop
      injection htop with hn0 _
      subst hn0
      have r1 := walk_run df l hv.1 hcl h1
      have r2 := walk_run df r hv.2.1 hcr h3
      rcases cmp_inv h5 with ⟨-, hlt, -⟩ | ⟨-, -, hrt, a, b, h7, h8⟩ | ⟨hu, a, b, st1, h7, h8, h9⟩
      · rw [isAtom_isTypes] at hlt; exact absurd hlt hl
      · rw [isAtom_isTypes] at hrt
        rw [atom_map hv.2.1 hrt] at h7
        injection h7 with h7; injection h7 with _ h7
        injection h8 with h8 _ _ _
        subst h8
        rw [walk_atom hrt h3] at h7
        rw [if_pos hrt]
        have := walk_exact df l (by simpa using hl) hv.1 hcl hnl hs fl h1 h7
        rw [ht, topLeft_arith] at this
        exact this
      · injection h9 with ha hb _ _
        subst ha; subst hb
        by_cases hr : r.isAtom = true
        · exfalso
          rcases hu with hu | hu
          · obtain ⟨m, st2, h10, h11⟩ := walk_top (by simpa using hl) h1 h8
            rw [walk_atom hr h3, h10, use_compound h11] at hu; cases hu
          · rw [isAtom_isTypes, isAtom_isTypes, hr] at hu; cases hu.2
        · rw [if_neg hr]
          have s2s := run_solid r2 (run_solid r1 hs)
          have k1 := run_first (fun a ha hb => hd a hb ha) r2 (walk_first df l hv.1 hcl hnl hs fl h1)
          have k2 := walk_first df r hv.2.1 hcr hnr (run_solid r1 hs) (run_fresh hd r1 fr) h3
          obtain ⟨p1, rfl⟩ := map_simple hv.2.1 hcr h7 s2s k2
          obtain ⟨p2, _⟩ := map_simple hv.1 hcl h8 s2s k1
          have cl := level_call (Nat.le_trans (by decide) hg.2.2.1) (by simpa using hl) p2
          have cr := level_call hg.2.2.2 (by simpa using hr) p1
          rw [cl, cr, call_readable cl p2, call_readable cr p1]; rfl
  | .cmpD o r, hv, hg, hc, hk, hn, s, s', st, left, hs, hf, ht, h, htop => by
    rw [Cond.tree] at h
    rw [Cond.node] at htop
    rw [Cond.readable]
    refine cmp_word_exact (lt := .types (cmpTok o) true) rfl ?_ ?_ hv.1 hc hn hs hf ht h htop
    · intro s s' h'; rw [walk] at h'; injection h' with h'; rw [← h']
    · intro st n st' hm
      rw [mapNode, dflt_word, ok_bind] at hm
      injection hm with hm; injection hm with _ hm
      exact hm.symm
  | .isNull f eq, hv, hg, hc, hk, hn, s, s', st, left, hs, hf, ht, h, htop => by
    rw [Cond.tree] at h
    rw [Cond.node] at htop
    rw [Cond.readable]
    rw [walk] at h
    obtain ⟨s1, h1, h2⟩ := bind_ok_inv h
    obtain ⟨s2, h3, h4⟩ := bind_ok_inv h2
    obtain ⟨n, st0, h5, h6⟩ := exitMapped_inv h4
    rw [h6] at htop
    injection htop with hn0 _
    subst hn0
    rw [walk] at h1 h3
    injection h1 with h1; injection h3 with h3
    have e2 : s2.stack = s.stack := by rw [← h3, ← h1]
    rcases cmp_inv h5 with ⟨-, -, a, b, h7, h8⟩ | ⟨-, hlt, -⟩ | ⟨hu, a, b, st1, h7, h8, h9⟩
    · exfalso
      rw [mapNode] at h7
      obtain ⟨x, -, h7⟩ := bind_ok_inv h7
      injection h7 with h7; injection h7 with _ h7
      injection h8 with _ h8 _ _
      rw [e2] at h7
      have := (hs b (by rw [h7]; simp)).2
      rw [← h8] at this
      cases this
    · cases hlt
    · rcases hu with hu | hu
      · rw [e2] at hu; exact use_left hu ht
      · cases hu.1
  | .range f lo hi, hv, hg, hc, hk, hn, s, s', st, left, hs, hf, ht, h, htop => rfl
  | .isIn f ng es, hv, hg, hc, hk, hn, s, s', st, left, hs, hf, ht, h, htop => by
    have hces : Clear sk (Arith.itemsAll es) := fun f hf => hc f (by simp [Cond.items, hf])
    rw [Cond.tree, walk] at h
    rw [Cond.node] at htop
    rw [Cond.readable]
    obtain ⟨s1, h1, h2⟩ := bind_ok_inv h
    obtain ⟨n, st0, h5, h6⟩ := exitMapped_inv h2
    rw [h6] at htop
    injection htop with hn0 _
    subst hn0
    rw [mapNode] at h5
    obtain ⟨⟨ns, st1⟩, h7, h8⟩ := bind_ok_inv h5
    injection h8 with h8; injection h8 with h8 h9
    have hns : ns = Arith.nodes es := by
      cases ng with
      | true =>
        rw [if_pos rfl, if_pos rfl] at h8
        injection h8 with h8; injection h8
      | false =>
        rw [if_neg (by simp), if_neg (by simp)] at h8
        injection h8
    subst hns
    have hnes : (Arith.itemsAll es).Nodup := by rw [Cond.items] at hn; exact (List.nodup_cons.mp hn).2
    have ff : ∀ n ∈ s.stack, ¬ HasItem sk (Arith.itemsAll es) n :=
      fun n hn' ⟨a, ha, hR⟩ => hf n hn' ⟨a, ha, by simp [Cond.items, hR]⟩
    exact maps_simple hv.2.2 hces h7 (run_solid (walks_run df es hv.2.2 hces h1) hs)
      (walks_first df es hv.2.2 hces hnes hs ff h1)
  | .contains f o es, hv, hg, hc, hk, hn, s, s', st, left, hs, hf, ht, h, htop => by
    have hces : Clear sk (Arith.itemsAll es) := fun f hf => hc f (by simp [Cond.items, hf])
    rw [Cond.tree, walk] at h
    rw [Cond.node] at htop
    rw [Cond.readable]
    obtain ⟨s1, h1, h2⟩ := bind_ok_inv h
    unfold exitArray at h2
    obtain ⟨⟨ns, st1⟩, h7, h8⟩ := bind_ok_inv h2
    injection h8 with h8
    rw [← h8] at htop
    injection htop with h9 _
    injection h9 with _ _ h9
    subst h9
    have hnes : (Arith.itemsAll es).Nodup := by rw [Cond.items] at hn; exact (List.nodup_cons.mp hn).2
    have ff : ∀ n ∈ s.stack, ¬ HasItem sk (Arith.itemsAll es) n :=
      fun n hn' ⟨a, ha, hR⟩ => hf n hn' ⟨a, ha, by simp [Cond.items, hR]⟩
    exact maps_simple hv.2.2 hces h7 (run_solid (walks_run df es hv.2.2 hces h1) hs)
      (walks_first df es hv.2.2 hces hnes hs ff h1)
  | .notField f, hv, hg, hc, hk, hn, s, s', st, left, hs, hf, ht, h, htop => by
    rw [Cond.tree, walk] at h
    rw [Cond.node] at htop
    rw [Cond.readable]
    obtain ⟨s1, h1, h2⟩ := bind_ok_inv h
    rw [walk] at h1
    injection h1 with h1
    subst h1
    unfold exitNot at h2
    cases hst : s.stack with
    | nil =>
      rw [hst] at ht
      cases left <;> first | rfl | cases ht
    | cons n st1 =>
      exfalso
      simp only [hst] at h2
      injection h2 with h2
      rw [← h2] at htop
      injection htop with h3 _
      injection h3 with h3
      have := (hs n (by rw [hst]; simp)).2
      rw [h3] at this; cases this
  | .not c, hv, hg, hc, hk, hn, s, s', st, left, hs, hf, ht, h, htop => by
    rw [Cond.tree, walk] at h
    rw [Cond.node] at htop
    rw [Cond.readable]
    obtain ⟨s1, h1, h2⟩ := bind_ok_inv h
    obtain ⟨-, n, st1, e1, -⟩ := cond_flow df c hv hc hk h1
    unfold exitNot at h2
    simp only [e1] at h2
    injection h2 with h2
    rw [← h2] at htop
    injection htop with h3 _
    injection h3 with h3
    rw [h3] at e1
    exact cond_exact df c hv hg.1 hc hk hn hs hf ht h1 e1
  | .group c, hv, hg, hc, hk, hn, s, s', st, left, hs, hf, ht, h, htop => by
    rw [Cond.tree, walk] at h
    rw [Cond.node] at htop
    rw [Cond.readable]
    exact cond_exact df c hv hg hc hk hn hs hf ht h htop
  | .conn b l r, hv, hg, hc, hk, hn, s, s', st, left, hs, hf, ht, h, htop => by
    have hcl : Clear sk l.items := fun f hf => hc f (by simp [Cond.items, hf])
    have hcr : Clear sk r.items := fun f hf => hc f (by simp [Cond.items, hf])
    have hkl : Skips df sk l := ⟨hk.1, fun hu => hk.2 (by simp [Cond.usesDefault, hu])⟩
    have hkr : Skips df sk r := ⟨hk.1, fun hu => hk.2 (by simp [Cond.usesDefault, hu])⟩
    rw [Cond.items] at hn
    have hd := items_disjoint hn
    have hnl := (List.nodup_append.mp hn).1
    have hnr := (List.nodup_append.mp hn).2.1
    have fl : ∀ n ∈ s.stack, ¬ HasItem sk l.items n := fun n hn' ⟨a, ha, hR⟩ => hf n hn' ⟨a, ha, by simp [Cond.items, hR]⟩
    have fr : ∀ n ∈ s.stack, ¬ HasItem sk r.items n := fun n hn' ⟨a, ha, hR⟩ => hf n hn' ⟨a, ha, by simp [Cond.items, hR]⟩
    rw [Cond.tree, walk] at h
    obtain ⟨s1, h1, h2⟩ := bind_ok_inv h
    obtain ⟨s2, h3, h4⟩ := bind_ok_inv h2
    obtain ⟨f1, m, st1, e1, e2⟩ := cond_flow df l hv.1 hcl hkl h1
    have hleft : ∃ left', topOf s1.stack = topLeft left' := by
      rw [e1, topOf, Node.cls, if_neg (by simp [e2])]
      split
      · exact ⟨.test, rfl⟩
      · exact ⟨.membership, rfl⟩
    obtain ⟨left', hleft⟩ := hleft
    unfold exitBin at h4
    split at h4
    · rename_i y x st2 hst
      injection h4 with h4
      rw [← h4] at htop
      injection htop with h5 _
      have hxy : x = l.node df ∧ y = r.node df := by
        rw [Cond.node] at h5
        cases b with
        | true => rw [if_pos rfl, if_pos rfl] at h5; injection h5 with h5 h6; exact ⟨h5, h6⟩
        | false => rw [if_neg (by simp), if_neg (by simp)] at h5; injection h5 with h5 h6; exact ⟨h5, h6⟩
      obtain ⟨rfl, rfl⟩ := hxy
      have xr := cond_exact df r hv.2 hg.2.1 hcr hkr hnr (f1.2 hs) (flow_fresh hd f1 fr) hleft h3 hst
      obtain ⟨la, cn, hw⟩ := walk_sup df r.tree _ (cond_sup r hv.2 left' xr) s1 hleft
      rw [h3] at hw
      injection hw with hw
      have hst2 : s2.stack = pushes df r.tree ++ s1.stack := by rw [hw]
      have hcons := (pushes_cons df r.tree _ (cond_sup r hv.2 left' xr) (cond_isTypes r)).1
      cases htl : (pushes df r.tree).tail with
      | nil =>
        rw [htl] at hcons
        rw [hcons, hst] at hst2
        simp only [List.cons_append, List.nil_append, List.cons.injEq] at hst2
        have xl := cond_exact df l hv.1 hg.1 hcl hkl hnl hs fl ht h1 hst2.2.symm
        have hto : left' = l.asLeft := by
          apply topLeft_inj
          have := (pushes_cons df l.tree _ (cond_sup l hv.1 left xl) (cond_isTypes l)).2
          rw [← hleft, ← hst2.2, topOf, ← cond_node df l hv.1, this, cond_cls]
        rw [Cond.readable, xl, ← hto, xr, cond_tail df r _ xr htl]; rfl
      | cons q qs =>
        exfalso
        rw [htl] at hcons
        rw [hcons, hst] at hst2
        simp only [List.cons_append, List.cons.injEq] at hst2
        have hq : q ∈ pushes df r.tree := by rw [hcons]; simp
        obtain ⟨a, ha⟩ := List.exists_mem_of_ne_nil _ (cond_items_ne l hv.1)
        refine hd a ha (cond_pushes (sk := sk) df r hv.2 hcr hkr q hq a ?_)
        rw [← hst2.2.1, cond_leaves df l hcl hkl]; exact ha
    · cases h4

end BoolParser
