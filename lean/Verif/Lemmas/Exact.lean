import Verif.Lemmas.Stack
/-!
# The listener gets nothing else right

If no name and no literal occurs twice, the listener builds the node of an expression only if the expression is
`readable`. The reason: a node that was taken from the stack by mistake contains something that does not belong there.
-/

namespace BoolParser
open Spec Relation

/-! ### The first node of a stack that has something -/

/-- The first node with `M` is not a `Q`. -/
def FirstNot (M Q : Node → Prop) : NStack → Prop
  | [] => True
  | n :: st => (M n → ¬ Q n) ∧ (¬ M n → FirstNot M Q st)

theorem firstNot_none {M Q : Node → Prop} : {st : NStack} → (∀ n ∈ st, ¬ M n) → FirstNot M Q st
  | [], _ => trivial
  | n :: st, h => ⟨fun hm => absurd hm (h n (by simp)), fun _ => firstNot_none (fun m hm => h m (by simp [hm]))⟩

theorem firstNot_among {M Q : Node → Prop} {st : NStack} : {ps : List Node} → FirstNot M Q (ps ++ st) →
    (∃ p ∈ ps, M p) → ∃ p ∈ ps, ¬ Q p
  | [], _, ⟨_, h, _⟩ => by cases h
  | q :: ps, hf, ⟨p, hp, hm⟩ => by
    by_cases hq : M q
    · exact ⟨q, by simp, hf.1 hq⟩
    · obtain ⟨r, hr, h⟩ := firstNot_among (hf.2 hq) (by
        rcases List.mem_cons.mp hp with rfl | hp
        · exact absurd hm hq
        · exact ⟨p, hp, hm⟩)
      exact ⟨r, by simp [hr], h⟩

theorem firstNot_skip {M Q : Node → Prop} {st : NStack} : {ps : List Node} → FirstNot M Q (ps ++ st) →
    (∀ p ∈ ps, ¬ M p) → FirstNot M Q st
  | [], h, _ => h
  | q :: ps, h, hn => firstNot_skip (h.2 (hn q (by simp))) (fun p hp => hn p (by simp [hp]))

/-- Once a node does not have `M`, none below has. -/
def Layered (M : Node → Prop) : NStack → Prop
  | [] => True
  | n :: st => (¬ M n → ∀ p ∈ st, ¬ M p) ∧ Layered M st

theorem layered_none {M : Node → Prop} : {st : NStack} → (∀ n ∈ st, ¬ M n) → Layered M st
  | [], _ => trivial
  | n :: st, h => ⟨fun _ m hm => h m (by simp [hm]), layered_none (fun m hm => h m (by simp [hm]))⟩

theorem layered_skip {M : Node → Prop} {st : NStack} : {ps : List Node} → Layered M (ps ++ st) → Layered M st
  | [], h => h
  | _ :: _, h => layered_skip h.2

theorem firstNot_top {M Q : Node → Prop} {n : Node} {st : NStack} (hl : Layered M (n :: st)) (h : M n → ¬ Q n) :
    FirstNot M Q (n :: st) :=
  ⟨h, fun hm => firstNot_none (hl.1 hm)⟩

/-- Strictly inside. -/
abbrev Inside (n m : Node) : Prop := TransGen NodePart n m

theorem inside_leaves {sk : JStr → Bool} {a n : Node} (h : Inside a n) : ∀ x ∈ a.leaves sk, x ∈ n.leaves sk :=
  within_leaves h.to_reflTransGen

variable {sk : JStr → Bool}

theorem run_first {E R : List Item} (hd : ∀ a ∈ E, a ∉ R) {m : Node} {st st' : NStack} (hr : StackRun sk E st st')
    (h : FirstNot (HasItem sk R) (Inside · m) st) : FirstNot (HasItem sk R) (Inside · m) st' := by
  induction hr with
  | refl => exact h
  | step _ ht _ ih =>
    obtain ⟨ps, e1, e2, e3, _⟩ := ht
    rw [e1] at ih
    have has : ∀ p ∈ ps, HasItem sk R p → HasItem sk R _ := fun p hp ⟨a, ha, hR⟩ => ⟨a, inside_leaves (e2 p hp) a ha, hR⟩
    refine ⟨?_, ?_⟩
    · rintro ⟨a, ha, hR⟩ hin
      rcases e3 a ha with hE | ⟨p, hp, hpa⟩
      · exact hd a hE hR
      · obtain ⟨q, hq, hn⟩ := firstNot_among ih ⟨p, hp, a, hpa, hR⟩
        exact hn ((e2 q hq).trans hin)
    · intro hn
      exact firstNot_skip ih (fun p hp h => hn (has p hp h))

theorem run_layered {E R : List Item} (hs : ∀ a ∈ E, a ∈ R) {st st' : NStack} (hr : StackRun sk E st st')
    (h : Layered (HasItem sk R) st) : Layered (HasItem sk R) st' := by
  induction hr with
  | refl => exact h
  | step _ ht _ ih =>
    obtain ⟨ps, e1, e2, e3, e4⟩ := ht
    rw [e1] at ih
    refine ⟨?_, layered_skip ih⟩
    intro hn
    rcases e4 with hp | ⟨a, ha, hE⟩
    · cases ps with
      | nil => exact absurd rfl hp
      | cons p ps =>
        have : ¬ HasItem sk R p := fun ⟨a, ha, hR⟩ => hn ⟨a, inside_leaves (e2 p (by simp)) a ha, hR⟩
        intro q hq
        exact ih.1 this q (by simp [hq])
    · exact absurd ⟨a, ha, hs a hE⟩ hn

theorem run_leaves {E : List Item} {st st' : NStack} (hr : StackRun sk E st st') :
    ∀ n ∈ st', ∀ a ∈ n.leaves sk, a ∈ E ∨ ∃ m ∈ st, a ∈ m.leaves sk := by
  induction hr with
  | refl => exact fun n hn a ha => .inr ⟨n, hn, ha⟩
  | step _ ht _ ih =>
    obtain ⟨ps, e1, e2, e3, _⟩ := ht
    rw [e1] at ih
    intro m hm a ha
    rcases List.mem_cons.mp hm with rfl | hm
    · rcases e3 a ha with h | ⟨p, hp, h⟩
      · exact .inl h
      · exact ih p (by simp [hp]) a h
    · exact ih m (by simp [hm]) a ha

/-- A name or literal. -/
def Node.isLeaf : Node → Bool
  | .field _ => true
  | .unary _ _ => true
  | _ => false

/-- Every node on the stack has items and is neither a name nor a literal. -/
def Solid (sk : JStr → Bool) (st : NStack) : Prop := ∀ n ∈ st, n.leaves sk ≠ [] ∧ n.isLeaf = false

theorem compound_leaf {n : Node} (h : n.isCompound = true) : n.isLeaf = false := by
  cases n <;> first | rfl | cases h

theorem run_solid {E : List Item} {st st' : NStack} (hr : StackRun sk E st st') (h : Solid sk st) : Solid sk st' := by
  induction hr with
  | refl => exact h
  | step _ ht hc ih =>
    obtain ⟨ps, e1, e2, e3, e4⟩ := ht
    rw [e1] at ih
    intro m hm
    rcases List.mem_cons.mp hm with rfl | hm
    · refine ⟨?_, compound_leaf hc⟩
      rcases e4 with hp | ⟨a, ha, hE⟩
      · cases ps with
        | nil => exact absurd rfl hp
        | cons p ps =>
          obtain ⟨a, ha⟩ := List.exists_mem_of_ne_nil _ (ih p (by simp)).1
          exact List.ne_nil_of_mem (inside_leaves (e2 p (by simp)) a ha)
      · exact List.ne_nil_of_mem ha
    · exact ih m (by simp [hm])

theorem run_fresh {E R : List Item} (hd : ∀ a ∈ E, a ∉ R) {st st' : NStack} (hr : StackRun sk E st st')
    (h : ∀ n ∈ st, ¬ HasItem sk R n) : ∀ n ∈ st', ¬ HasItem sk R n := by
  rintro n hn ⟨a, ha, hR⟩
  rcases run_leaves hr n hn a ha with hE | ⟨m, hm, h'⟩
  · exact hd a hE hR
  · exact h m hm ⟨a, h', hR⟩

/-! ### What was built is never a proper part of what should have been built -/

theorem inside_op {n l r : Node} {o : ArithOp} (h : Inside n (.arith o l r)) :
    ReflTransGen NodePart n l ∨ ReflTransGen NodePart n r := by
  obtain ⟨m, h1, h2⟩ := TransGen.tail'_iff.mp h
  cases h2 with
  | left => exact .inl h1
  | right => exact .inr h1

theorem inside_neg {n l : Node} (h : Inside n (.neg l)) : ReflTransGen NodePart n l := by
  obtain ⟨m, h1, h2⟩ := TransGen.tail'_iff.mp h
  cases h2 with
  | neg => exact h1

theorem inside_func {n : Node} {f : FuncType} {ns : List Node} (h : Inside n (.func f ns)) :
    ∃ m ∈ ns, ReflTransGen NodePart n m := by
  obtain ⟨m, h1, h2⟩ := TransGen.tail'_iff.mp h
  cases h2 with
  | item hm => exact ⟨m, hm, h1⟩

theorem mem_nodes {n : Node} : {es : List Arith} → (n ∈ Arith.nodes es ↔ ∃ e ∈ es, n = e.node)
  | [] => by simp [Arith.nodes]
  | e :: es => by simp [Arith.nodes, mem_nodes (es := es)]

theorem not_inside_self {n : Node} (h : Inside n n) : False := absurd (proper_size h) (Nat.lt_irrefl _)

/-- Nodes taken from the stack do not belong into the operands. -/
theorem maps_inside {df : Option JStr} {e : Arith} (hv : e.Valid) (hc : Clear sk e.items) {st st' : NStack} {n : Node}
    (hm : mapNode df e.tree st = .ok (n, st')) (hs : Solid sk st) {xs : List Arith}
    (hx : Inside n e.node → ∃ x ∈ xs, ReflTransGen NodePart n x.node) (hcx : ∀ x ∈ xs, Clear sk x.items)
    (hf : ∀ x ∈ xs, FirstNot (HasItem sk x.items) (Inside · x.node) st) : ¬ Inside n e.node := by
  intro hin
  obtain ⟨ps, e1, e2, e3, e4, e5⟩ := map_takes df e hv hc hm
  cases ps with
  | nil => rw [(e5 rfl).2] at hin; exact not_inside_self hin
  | cons p ps =>
    obtain ⟨x, hxs, hw⟩ := hx hin
    have hp : Inside p x.node := TransGen.trans_left (e2 p (by simp)) hw
    obtain ⟨a, ha⟩ := List.exists_mem_of_ne_nil _ (hs p (by rw [e1]; simp)).1
    have ha' := inside_leaves hp a ha
    rw [arith_leaves x (hcx x hxs)] at ha'
    have := hf x hxs
    rw [e1] at this
    exact this.1 ⟨a, ha, ha'⟩ hp

theorem items_disjoint {l r : List Item} (h : (l ++ r).Nodup) : ∀ a ∈ l, a ∉ r := by
  intro a ha hr
  exact (List.nodup_append.mp h).2.2 a ha a hr rfl

mutual
theorem walk_first (df : Option JStr) : (e : Arith) → e.Valid → Clear sk e.items → e.items.Nodup → ∀ {s s'},
    Solid sk s.stack → (∀ n ∈ s.stack, ¬ HasItem sk e.items n) → walk df e.tree s = .ok s' →
    FirstNot (HasItem sk e.items) (Inside · e.node) s'.stack
  | .field f, _, _, _, s, s', _, hf, h => by rw [walk_atom rfl h]; exact firstNot_none hf
  | .lit l, _, _, _, s, s', _, hf, h => by rw [walk_atom rfl h]; exact firstNot_none hf
  | .group e, hv, hc, hn, s, s', hs, hf, h => by
    rw [Arith.Valid] at hv
    rw [Arith.tree, walk] at h
    exact walk_first df e hv hc hn hs hf h
  | .neg e, hv, hc, hn, s, s', hs, hf, h => by
    have hl := run_layered (R := (Arith.neg e).items) (fun _ h => h) (walk_run df (.neg e) hv hc h) (layered_none hf)
    rw [Arith.Valid] at hv
    rw [Arith.tree, walk] at h
    obtain ⟨s1, h1, h2⟩ := bind_ok_inv h
    rcases exitNeg_inv hv h2 with ⟨n, st, e1, e2, e3⟩ | ⟨ha, -, e3⟩
    · rw [e3] at hl ⊢
      refine firstNot_top hl ?_
      rintro ⟨a, ha, hR⟩ hin
      have ih := walk_first df e hv hc hn hs hf h1
      rw [e1] at ih
      exact ih.1 ⟨a, by simpa [Node.leaves] using ha, hR⟩ (TransGen.trans_left (.single .neg) (inside_neg hin))
    · rw [e3] at hl ⊢
      exact firstNot_top hl (fun _ hin => not_inside_self hin)
  | .op o l r, hv, hc, hn, s, s', hs, hf, h => by
    have hl := run_layered (R := (Arith.op o l r).items) (fun _ h => h) (walk_run df (.op o l r) hv hc h) (layered_none hf)
    have hv0 := hv
    rw [Arith.Valid] at hv
    have hcl : Clear sk l.items := fun f hf => hc f (by simp [Arith.items, hf])
    have hcr : Clear sk r.items := fun f hf => hc f (by simp [Arith.items, hf])
    rw [Arith.items] at hn
    have hd := items_disjoint hn
    have hnl := (List.nodup_append.mp hn).1
    have hnr := (List.nodup_append.mp hn).2.1
    rw [Arith.tree, walk] at h
    obtain ⟨s1, h1, h2⟩ := bind_ok_inv h
    obtain ⟨s2, h3, h4⟩ := bind_ok_inv h2
    obtain ⟨n, st, h5, h6⟩ := exitMapped_inv h4
    have r1 := walk_run df l hv.1 hcl h1
    have r2 := walk_run df r hv.2 hcr h3
    have fl : ∀ n ∈ s.stack, ¬ HasItem sk l.items n := fun n hn' ⟨a, ha, hR⟩ => hf n hn' ⟨a, ha, by simp [Arith.items, hR]⟩
    have fr : ∀ n ∈ s.stack, ¬ HasItem sk r.items n := fun n hn' ⟨a, ha, hR⟩ => hf n hn' ⟨a, ha, by simp [Arith.items, hR]⟩
    have k1 := run_first (fun a ha hb => hd a hb ha) r2 (walk_first df l hv.1 hcl hnl hs fl h1)
    have k2 := walk_first df r hv.2 hcr hnr (run_solid r1 hs) (run_fresh hd r1 fr) h3
    rw [h6] at hl ⊢
    refine firstNot_top hl (fun _ => maps_inside (e := .op o l r) hv0 hc h5 (run_solid r2 (run_solid r1 hs)) (xs := [l, r]) ?_ ?_ ?_)
    · intro hin
      rcases inside_op hin with h | h
      · exact ⟨l, by simp, h⟩
      · exact ⟨r, by simp, h⟩
    · simp; exact ⟨hcl, hcr⟩
    · simp; exact ⟨k1, k2⟩
  | .call f args, hv, hc, hn, s, s', hs, hf, h => by
    have hl := run_layered (R := (Arith.call f args).items) (fun _ h => h) (walk_run df (.call f args) hv hc h) (layered_none hf)
    have hv0 := hv
    rw [Arith.Valid] at hv
    rw [Arith.tree, walk] at h
    obtain ⟨s1, h1, h2⟩ := bind_ok_inv h
    obtain ⟨n, st, h5, h6⟩ := exitMapped_inv h2
    have k := walks_first df args hv.2 hc hn hs hf h1
    rw [h6] at hl ⊢
    refine firstNot_top hl (fun _ => maps_inside (e := .call f args) hv0 hc h5 (run_solid (walks_run df args hv.2 hc h1) hs)
      (xs := args) ?_ ?_ k)
    · intro hin
      obtain ⟨m, hm, hw⟩ := inside_func hin
      obtain ⟨x, hx, rfl⟩ := mem_nodes.mp hm
      exact ⟨x, hx, hw⟩
    · intro x hx f hfx
      exact hc f (by rw [Arith.items]; exact mem_itemsAll.mpr ⟨x, hx, hfx⟩)
theorem walks_first (df : Option JStr) : (es : List Arith) → Arith.AllValid es → Clear sk (Arith.itemsAll es) →
    (Arith.itemsAll es).Nodup → ∀ {s s'},
    Solid sk s.stack → (∀ n ∈ s.stack, ¬ HasItem sk (Arith.itemsAll es) n) → walkAll df (Arith.trees es) s = .ok s' →
    ∀ e ∈ es, FirstNot (HasItem sk e.items) (Inside · e.node) s'.stack
  | [], _, _, _, _, _, _, _, _ => by simp
  | e :: es, hv, hc, hn, s, s', hs, hf, h => by
    rw [Arith.AllValid] at hv
    have hce : Clear sk e.items := fun f hf => hc f (by simp [Arith.itemsAll, hf])
    have hces : Clear sk (Arith.itemsAll es) := fun f hf => hc f (by simp [Arith.itemsAll, hf])
    rw [Arith.itemsAll] at hn
    have hd := items_disjoint hn
    rw [Arith.trees, walkAll] at h
    obtain ⟨s1, h1, h2⟩ := bind_ok_inv h
    have r1 := walk_run df e hv.1 hce h1
    have r2 := walks_run df es hv.2 hces h2
    have fl : ∀ n ∈ s.stack, ¬ HasItem sk e.items n := fun n hn' ⟨a, ha, hR⟩ => hf n hn' ⟨a, ha, by simp [Arith.itemsAll, hR]⟩
    have fr : ∀ n ∈ s.stack, ¬ HasItem sk (Arith.itemsAll es) n :=
      fun n hn' ⟨a, ha, hR⟩ => hf n hn' ⟨a, ha, by simp [Arith.itemsAll, hR]⟩
    have k1 := run_first (fun a ha hb => hd a hb ha) r2 (walk_first df e hv.1 hce (List.nodup_append.mp hn).1 hs fl h1)
    have k2 := walks_first df es hv.2 hces (List.nodup_append.mp hn).2.1 (run_solid r1 hs) (run_fresh hd r1 fr) h2
    intro x hx
    rcases List.mem_cons.mp hx with rfl | hx
    · exact k1
    · exact k2 x hx
end

/-! ### Arguments -/

/-- Mapped to its own node, an argument was mapped as it is. -/
theorem map_simple {df : Option JStr} {e : Arith} (hv : e.Valid) (hc : Clear sk e.items) {st st' : NStack}
    (hm : mapNode df e.tree st = .ok (e.node, st')) (hs : Solid sk st)
    (hf : FirstNot (HasItem sk e.items) (Inside · e.node) st) : e.simpleArg = true ∧ st' = st := by
  obtain ⟨ps, e1, e2, e3, e4, e5⟩ := map_takes df e hv hc hm
  cases ps with
  | nil => exact ⟨(e5 rfl).1, by rw [e1]; rfl⟩
  | cons p ps =>
    exfalso
    obtain ⟨a, ha⟩ := List.exists_mem_of_ne_nil _ (hs p (by rw [e1]; simp)).1
    have ha' := inside_leaves (e2 p (by simp)) a ha
    rw [arith_leaves e hc] at ha'
    rw [e1] at hf
    exact hf.1 ⟨a, ha, ha'⟩ (e2 p (by simp))

theorem maps_simple {df : Option JStr} {es : List Arith} (hv : Arith.AllValid es) (hc : Clear sk (Arith.itemsAll es))
    {st st' : NStack} (hm : mapNodes df (Arith.trees es) st = .ok (Arith.nodes es, st')) (hs : Solid sk st)
    (hf : ∀ e ∈ es, FirstNot (HasItem sk e.items) (Inside · e.node) st) : Arith.simpleArgs es = true := by
  obtain ⟨ps, e1, e2, e3, e4, e5⟩ := maps_take df es hv hc hm
  cases ps with
  | nil => exact (e5 rfl).1
  | cons p ps =>
    exfalso
    obtain ⟨n, hn, hin⟩ := e2 p (by simp)
    obtain ⟨x, hx, rfl⟩ := mem_nodes.mp hn
    obtain ⟨a, ha⟩ := List.exists_mem_of_ne_nil _ (hs p (by rw [e1]; simp)).1
    have ha' := inside_leaves hin a ha
    rw [arith_leaves x (fun f hfx => hc f (mem_itemsAll.mpr ⟨x, hx, hfx⟩))] at ha'
    have := hf x hx
    rw [e1] at this
    exact this.1 ⟨a, ha, ha'⟩ hin

/-! ### What supported trees leave on the stack -/

mutual
theorem pushes_items (df : Option JStr) : (e : Arith) → e.Valid → Clear sk e.items →
    ∀ n ∈ pushes df e.tree, ∀ a ∈ n.leaves sk, a ∈ e.items
  | .field f, _, _ => by simp [Arith.tree, pushes]
  | .lit l, _, _ => by simp [Arith.tree, pushes]
  | .group e, hv, hc => by
    rw [Arith.Valid] at hv
    rw [Arith.tree, pushes, Arith.items]; exact pushes_items df e hv hc
  | .neg e, hv, hc => by
    have hl := arith_leaves (.neg e) hc
    have hnd := arith_node df (.neg e) hv
    rw [Arith.Valid] at hv
    rw [Arith.tree] at hnd
    rw [Arith.tree, pushes, hnd]
    intro n hn a ha
    rcases List.mem_cons.mp hn with rfl | hn
    · rw [hl] at ha; exact ha
    · exact pushes_items df e hv hc n (List.mem_of_mem_tail hn) a ha
  | .op o l r, hv, hc => by
    have hl := arith_leaves (.op o l r) hc
    have hnd := arith_node df (.op o l r) hv
    rw [Arith.Valid] at hv
    rw [Arith.tree] at hnd
    rw [Arith.tree, pushes, hnd]
    intro n hn a ha
    rcases List.mem_cons.mp hn with rfl | hn
    · rw [hl] at ha; exact ha
    · rw [Arith.items]
      rcases List.mem_append.mp hn with hn | hn
      · exact List.mem_append_right _ (pushes_items df r hv.2 (fun f hf => hc f (by simp [Arith.items, hf])) n
          (List.mem_of_mem_tail hn) a ha)
      · exact List.mem_append_left _ (pushes_items df l hv.1 (fun f hf => hc f (by simp [Arith.items, hf])) n
          (List.mem_of_mem_tail hn) a ha)
  | .call f args, hv, hc => by
    have hl := arith_leaves (.call f args) hc
    have hnd := arith_node df (.call f args) hv
    rw [Arith.Valid] at hv
    rw [Arith.tree] at hnd
    rw [Arith.tree, pushes, hnd]
    intro n hn a ha
    rcases List.mem_cons.mp hn with rfl | hn
    · rw [hl] at ha; exact ha
    · exact pushesAll_items df args hv.2 hc n hn a ha
theorem pushesAll_items (df : Option JStr) : (es : List Arith) → Arith.AllValid es → Clear sk (Arith.itemsAll es) →
    ∀ n ∈ pushesAll df (Arith.trees es), ∀ a ∈ n.leaves sk, a ∈ Arith.itemsAll es
  | [], _, _ => by simp [Arith.trees, pushesAll]
  | e :: es, hv, hc => by
    rw [Arith.AllValid] at hv
    rw [Arith.trees, pushesAll, Arith.itemsAll]
    intro n hn a ha
    rcases List.mem_append.mp hn with hn | hn
    · exact List.mem_append_right _ (pushesAll_items df es hv.2 (fun f hf => hc f (by simp [Arith.itemsAll, hf])) n hn a ha)
    · exact List.mem_append_left _ (pushes_items df e hv.1 (fun f hf => hc f (by simp [Arith.itemsAll, hf])) n hn a ha)
end

theorem simple_pushes (df : Option JStr) {e : Arith} (h : e.simpleArg = true) (hp : pushes df e.tree = []) :
    e.isAtom = true := by
  cases e with
  | field f => rfl
  | lit l => rfl
  | group e => simp [Arith.simpleArg] at h
  | neg e => simp [Arith.simpleArg] at h
  | op o l r => rw [Arith.tree, pushes] at hp; cases hp
  | call f args => rw [Arith.tree, pushes] at hp; cases hp

theorem simples_pushes (df : Option JStr) : {es : List Arith} → Arith.simpleArgs es = true →
    pushesAll df (Arith.trees es) = [] → es.all Arith.isAtom = true
  | [], _, _ => rfl
  | e :: es, h, hp => by
    rw [Arith.simpleArgs, Bool.and_eq_true] at h
    rw [Arith.trees, pushesAll] at hp
    obtain ⟨h1, h2⟩ := List.append_eq_nil_iff.mp hp
    rw [List.all_cons, simple_pushes df h.1 h2, simples_pushes df h.2 h1]; rfl

theorem tail_tidy (df : Option JStr) : (e : Arith) → ∀ a, e.readable a = true → (pushes df e.tree).tail = [] →
    e.tidy = true
  | .field f, _, _, _ => rfl
  | .lit l, _, _, _ => rfl
  | .group e, a, h, hp => by
    rw [Arith.readable, Bool.and_eq_true] at h
    rw [Arith.tree, pushes] at hp
    rw [Arith.tidy]; exact tail_tidy df e a h.2 hp
  | .neg e, a, h, hp => by
    rw [Arith.readable] at h
    rw [Arith.tree, pushes, List.tail_cons] at hp
    rw [Arith.tidy]
    split at h
    · rename_i ha; cases e <;> first | rfl | cases ha
    · rw [Bool.and_eq_true] at h; exact tail_tidy df e a h.1 hp
  | .op o l r, a, h, hp => by
    rw [Arith.readable, Bool.and_eq_true, Bool.and_eq_true] at h
    rw [Arith.tree, pushes, List.tail_cons] at hp
    obtain ⟨h1, h2⟩ := List.append_eq_nil_iff.mp hp
    rw [Arith.tidy, tail_tidy df l _ h.1 h2, tail_tidy df r _ h.2.1 h1]; rfl
  | .call f args, a, h, hp => by
    rw [Arith.readable] at h
    rw [Arith.tree, pushes, List.tail_cons] at hp
    rw [Arith.tidy]; exact simples_pushes df h hp

/-! ### Arithmetic expressions -/

theorem node_arith : (e : Arith) → e.node.isArithNode = e.isOperation
  | .field f => rfl
  | .lit l => rfl
  | .group e => by rw [Arith.node, Arith.isOperation]; exact node_arith e
  | .op o l r => rfl
  | .neg e => rfl
  | .call f args => rfl

theorem atom_leaf {e : Arith} (h : e.isAtom = true) : e.node.isLeaf = true := by
  cases e <;> first | rfl | cases h

theorem topOf_arith (n : Node) (st : NStack) : (topOf (n :: st) == .arith) = n.isArithNode := by
  rw [topOf, Node.cls]
  cases n.isArithNode with
  | true => rfl
  | false =>
    simp only [Bool.false_eq_true, if_false]
    split <;> rfl

/-- **Only readable expressions are built right.** -/
theorem walk_exact (df : Option JStr) : (e : Arith) → e.isAtom = false → e.Valid → Clear sk e.items → e.items.Nodup →
    ∀ {s s' st}, Solid sk s.stack → (∀ n ∈ s.stack, ¬ HasItem sk e.items n) → walk df e.tree s = .ok s' →
    s'.stack = e.node :: st → e.readable (topOf s.stack == .arith) = true
  | .field f, ha, _, _, _, _, _, _, _, _, _, _ => by cases ha
  | .lit l, ha, _, _, _, _, _, _, _, _, _, _ => by cases ha
  | .group e, _, hv, hc, hn, s, s', st, hs, hf, h, htop => by
    rw [Arith.Valid] at hv
    rw [Arith.tree, walk] at h
    rw [Arith.node] at htop
    rw [Arith.readable]
    cases ha : e.isAtom with
    | true =>
      rw [walk_atom ha h] at htop
      have := (hs e.node (by rw [htop]; simp)).2
      rw [atom_leaf ha] at this; cases this
    | false => rw [walk_exact df e ha hv hc hn hs hf h htop]; rfl
  | .neg e, _, hv, hc, hn, s, s', st, hs, hf, h, htop => by
    rw [Arith.Valid] at hv
    rw [Arith.tree, walk] at h
    rw [Arith.node] at htop
    rw [Arith.readable]
    obtain ⟨s1, h1, h2⟩ := bind_ok_inv h
    rcases exitNeg_inv hv h2 with ⟨n, st1, e1, e2, e3⟩ | ⟨ha, e2, e3⟩
    · rw [e3] at htop
      injection htop with h3 h4
      injection h3 with h3
      subst h3
      cases ha : e.isAtom with
      | true =>
        rw [node_arith] at e2
        cases e <;> first | (cases ha; done) | (cases e2; done)
      | false =>
        simp only [Bool.false_eq_true, if_false]
        rw [walk_exact df e ha hv hc hn hs hf h1 e1, ← node_arith, e2]; rfl
    · rw [if_pos ha]
      rw [walk_atom ha h1] at e2
      cases hst : s.stack with
      | nil => rfl
      | cons n st1 => rw [topOf_arith, e2 n st1 hst]; rfl
  | .op o l r, _, hv, hc, hn, s, s', st, hs, hf, h, htop => by
    have hv0 := hv
    rw [Arith.Valid] at hv
    have hcl : Clear sk l.items := fun f hf => hc f (by simp [Arith.items, hf])
    have hcr : Clear sk r.items := fun f hf => hc f (by simp [Arith.items, hf])
    rw [Arith.items] at hn
    have hd := items_disjoint hn
    have hnl := (List.nodup_append.mp hn).1
    have hnr := (List.nodup_append.mp hn).2.1
    rw [Arith.tree, walk] at h
    obtain ⟨s1, h1, h2⟩ := bind_ok_inv h
    obtain ⟨s2, h3, h4⟩ := bind_ok_inv h2
    obtain ⟨n, st0, h5, h6⟩ := exitMapped_inv h4
    rw [h6] at htop
    injection htop with hn0 _
    subst hn0
    have r1 := walk_run df l hv.1 hcl h1
    have r2 := walk_run df r hv.2 hcr h3
    have fl : ∀ n ∈ s.stack, ¬ HasItem sk l.items n := fun n hn' ⟨a, ha, hR⟩ => hf n hn' ⟨a, ha, by simp [Arith.items, hR]⟩
    have fr : ∀ n ∈ s.stack, ¬ HasItem sk r.items n := fun n hn' ⟨a, ha, hR⟩ => hf n hn' ⟨a, ha, by simp [Arith.items, hR]⟩
    rw [mapNode_arith, isAtom_isTypes, isAtom_isTypes] at h5
    rw [Arith.readable]
    by_cases hl : l.isAtom = true
    · by_cases hr : r.isAtom = true
      · rw [atom_readable hl, atom_readable hr, hl]; rfl
      · rw [if_neg (by simp [hr]), if_pos hl, atom_map hv.1 hl, ok_bind] at h5
        simp only at h5
        obtain ⟨⟨b, st1⟩, h7, h8⟩ := bind_ok_inv h5
        injection h8 with h8; injection h8 with h8 h9
        rw [Arith.node] at h8
        injection h8 with _ _ h8
        subst h8
        have e1 := walk_atom hl h1
        have := walk_exact df r (by simpa using hr) hv.2 hcr hnr (s := s1) (by rw [e1]; exact hs) (by rw [e1]; exact fr) h3
          (popN_inv h7)
        rw [e1] at this
        rw [atom_readable hl, if_pos hl, this, hl]; rfl
    · by_cases hr : r.isAtom = true
      · rw [if_neg (by simp [hl]), if_neg hl, if_pos hr, atom_map hv.2 hr, ok_bind] at h5
        simp only at h5
        obtain ⟨⟨b, st1⟩, h7, h8⟩ := bind_ok_inv h5
        injection h8 with h8; injection h8 with h8 h9
        rw [Arith.node] at h8
        injection h8 with _ h8 _
        subst h8
        have e1 := walk_atom hr h3
        have h7' := popN_inv h7
        rw [e1] at h7'
        rw [walk_exact df l (by simpa using hl) hv.1 hcl hnl hs fl h1 h7', atom_readable hr, hr]
        simp
      · rw [if_neg (by simp [hl]), if_neg hl, if_neg hr] at h5
        split at h5
        · rename_i b a st1 hst
          injection h5 with h5; injection h5 with h8 h9
          rw [Arith.node] at h8
          injection h8 with _ ha hb
          subst ha; subst hb
          have xr := walk_exact df r (by simpa using hr) hv.2 hcr hnr (run_solid r1 hs) (run_fresh hd r1 fr) h3 hst
          obtain ⟨la, cn, hw⟩ := walk_sup df r.tree (topOf s1.stack) (arith_sup r hv.2 _ _ rfl xr) s1 rfl
          rw [h3] at hw
          injection hw with hw
          have hst2 : s2.stack = pushes df r.tree ++ s1.stack := by rw [hw]
          have hcons := (pushes_cons df r.tree _ (arith_sup r hv.2 _ _ rfl xr) (by rw [isAtom_isTypes]; simpa using hr)).1
          cases htl : (pushes df r.tree).tail with
          | nil =>
            rw [htl] at hcons
            rw [hcons, hst] at hst2
            simp only [List.cons_append, List.nil_append, List.cons.injEq] at hst2
            have xl := walk_exact df l (by simpa using hl) hv.1 hcl hnl hs fl h1 hst2.2.symm
            have hto : (topOf s1.stack == .arith) = l.isOperation := by
              rw [← hst2.2, topOf_arith, node_arith]
            rw [hto] at xr
            rw [xl, if_neg hl, xr, tail_tidy df r _ xr htl]; simp
          | cons q qs =>
            exfalso
            rw [htl] at hcons
            rw [hcons, hst] at hst2
            simp only [List.cons_append, List.cons.injEq] at hst2
            have hq : q ∈ pushes df r.tree := by rw [hcons]; simp
            obtain ⟨a, ha⟩ := List.exists_mem_of_ne_nil _ (items_ne l hv.1)
            refine hd a ha (pushes_items (sk := sk) df r hv.2 hcr q hq a ?_)
            rw [← hst2.2.1, arith_leaves l hcl]; exact ha
        · cases h5
  | .call f args, _, hv, hc, hn, s, s', st, hs, hf, h, htop => by
    rw [Arith.Valid] at hv
    rw [Arith.tree, walk] at h
    obtain ⟨s1, h1, h2⟩ := bind_ok_inv h
    obtain ⟨n, st0, h5, h6⟩ := exitMapped_inv h2
    rw [h6] at htop
    injection htop with hn0 _
    subst hn0
    rw [mapNode] at h5
    obtain ⟨⟨ns, st1⟩, h7, h8⟩ := bind_ok_inv h5
    injection h8 with h8; injection h8 with h8 _
    rw [Arith.node] at h8
    injection h8 with _ h8
    subst h8
    rw [Arith.readable]
    exact maps_simple hv.2 hc h7 (run_solid (walks_run df args hv.2 hc h1) hs) (walks_first df args hv.2 hc hn hs hf h1)

end BoolParser
