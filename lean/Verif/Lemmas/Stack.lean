import Mathlib.Logic.Relation
import Verif.Spec.Atoms
import Verif.Lemmas.CondNode
import Verif.Lemmas.Local
/-!
# What the listener does to its stack

Whatever the expression, the listener only takes nodes from the top of its stack and puts one node on top that
contains them.
-/

namespace BoolParser
open Spec Relation

mutual
/-- Names and values in a node; names with `sk` do not count. -/
def Node.leaves (sk : JStr → Bool) : Node → List Item
  | .cmp l r _ _ => Node.leaves sk l ++ Node.leaves sk r
  | .range f _ _ _ _ => [.name f]
  | .inn f ns => .name f :: Node.leavesAll sk ns
  | .array f _ ns => .name f :: Node.leavesAll sk ns
  | .unary _ v => [.value v]
  | .and_ l r => Node.leaves sk l ++ Node.leaves sk r
  | .or_ l r => Node.leaves sk l ++ Node.leaves sk r
  | .not_ l => Node.leaves sk l
  | .field none => []
  | .field (some f) => if sk f then [] else [.name f]
  | .arith _ l r => Node.leaves sk l ++ Node.leaves sk r
  | .neg l => Node.leaves sk l
  | .func _ ns => Node.leavesAll sk ns
def Node.leavesAll (sk : JStr → Bool) : List Node → List Item
  | [] => []
  | n :: ns => Node.leaves sk n ++ Node.leavesAll sk ns
end

theorem mem_leavesAll {sk : JStr → Bool} {a : Item} {ns : List Node} :
    a ∈ Node.leavesAll sk ns ↔ ∃ n ∈ ns, a ∈ n.leaves sk := by
  induction ns with
  | nil => simp [Node.leavesAll]
  | cons n ns ih => simp [Node.leavesAll, ih]

theorem mem_itemsAll {a : Item} {es : List Arith} : a ∈ Arith.itemsAll es ↔ ∃ e ∈ es, a ∈ e.items := by
  induction es with
  | nil => simp [Arith.itemsAll]
  | cons n ns ih => simp [Arith.itemsAll, ih]

/-- The names of the list count. -/
def Clear (sk : JStr → Bool) (as : List Item) : Prop := ∀ f, .name f ∈ as → sk f = false

mutual
theorem arith_leaves {sk : JStr → Bool} : (e : Arith) → Clear sk e.items → e.node.leaves sk = e.items
  | .field f, h => by
    have := h f (by simp [Arith.items])
    simp [Arith.node, Node.leaves, Arith.items, this]
  | .lit l, _ => by simp [Arith.node, Node.leaves, Arith.items]
  | .group e, h => by rw [Arith.node, Arith.items]; exact arith_leaves e h
  | .op o l r, h => by
    rw [Arith.node, Arith.items, Node.leaves, arith_leaves l (fun f hf => h f (by simp [Arith.items, hf])),
      arith_leaves r (fun f hf => h f (by simp [Arith.items, hf]))]
  | .neg e, h => by rw [Arith.node, Arith.items, Node.leaves]; exact arith_leaves e h
  | .call f args, h => by rw [Arith.node, Arith.items, Node.leaves]; exact arith_leavesAll args h
theorem arith_leavesAll {sk : JStr → Bool} : (es : List Arith) → Clear sk (Arith.itemsAll es) →
    Node.leavesAll sk (Arith.nodes es) = Arith.itemsAll es
  | [], _ => rfl
  | e :: es, h => by
    rw [Arith.nodes, Arith.itemsAll, Node.leavesAll, arith_leaves e (fun f hf => h f (by simp [Arith.itemsAll, hf])),
      arith_leavesAll es (fun f hf => h f (by simp [Arith.itemsAll, hf]))]
end

mutual
theorem items_ne : (e : Arith) → e.Valid → e.items ≠ []
  | .field f, _ => by simp [Arith.items]
  | .lit l, _ => by simp [Arith.items]
  | .group e, h => by rw [Arith.Valid] at h; rw [Arith.items]; exact items_ne e h
  | .op o l r, h => by
    rw [Arith.Valid] at h; rw [Arith.items]
    intro e; exact items_ne l h.1 (List.append_eq_nil_iff.mp e).1
  | .neg e, h => by rw [Arith.Valid] at h; rw [Arith.items]; exact items_ne e h
  | .call f args, h => by
    rw [Arith.Valid] at h; rw [Arith.items]
    cases args with
    | nil => exact absurd rfl h.1
    | cons e es =>
      rw [Arith.AllValid] at h
      rw [Arith.itemsAll]
      intro c; exact items_ne e h.2.1 (List.append_eq_nil_iff.mp c).1
end

/-- The direct parts of an arithmetic node. -/
inductive NodePart : Node → Node → Prop
  | left {o : ArithOp} {a b : Node} : NodePart a (.arith o a b)
  | right {o : ArithOp} {a b : Node} : NodePart b (.arith o a b)
  | neg {a : Node} : NodePart a (.neg a)
  | item {f : FuncType} {a : Node} {ns : List Node} : a ∈ ns → NodePart a (.func f ns)

theorem part_leaves {sk : JStr → Bool} {a n : Node} (h : NodePart a n) : ∀ x ∈ a.leaves sk, x ∈ n.leaves sk := by
  intro x hx
  cases h with
  | left => simp [Node.leaves, hx]
  | right => simp [Node.leaves, hx]
  | neg => simpa [Node.leaves] using hx
  | item h => rw [Node.leaves]; exact mem_leavesAll.mpr ⟨_, h, hx⟩

theorem within_leaves {sk : JStr → Bool} {a n : Node} (h : ReflTransGen NodePart a n) :
    ∀ x ∈ a.leaves sk, x ∈ n.leaves sk := by
  induction h with
  | refl => exact fun _ h => h
  | tail _ h ih => exact fun x hx => part_leaves h x (ih x hx)

theorem part_size {a n : Node} (h : NodePart a n) : sizeOf a < sizeOf n := by
  cases h with
  | left => simp; omega
  | right => simp
  | neg => simp
  | item h => have := List.sizeOf_lt_of_mem h; simp; omega

theorem proper_size {a n : Node} (h : TransGen NodePart a n) : sizeOf a < sizeOf n := by
  induction h with
  | single h => exact part_size h
  | tail _ h ih => exact ih.trans (part_size h)

/-- Does the node have one of the items? -/
def HasItem (sk : JStr → Bool) (R : List Item) (n : Node) : Prop := ∃ a ∈ n.leaves sk, a ∈ R

/-! ### One step -/

/-- Nodes were taken off the stack and are inside of `n`, which has nothing else but items of `E`. -/
def Absorbs (sk : JStr → Bool) (E : List Item) (st : NStack) (n : Node) (st' : NStack) : Prop :=
  ∃ ps, st = ps ++ st' ∧ (∀ p ∈ ps, TransGen NodePart p n) ∧
    (∀ a ∈ n.leaves sk, a ∈ E ∨ ∃ p ∈ ps, a ∈ p.leaves sk) ∧ (ps ≠ [] ∨ HasItem sk E n)

theorem atom_map {df : Option JStr} {e : Arith} (hv : e.Valid) (ha : e.isAtom = true) (st : NStack) :
    mapNode df e.tree st = .ok (e.node, st) := by
  rw [map_arg df e.tree (arg_ok e hv (by cases e <;> first | rfl | cases ha)) st, arith_node df e hv]

/-- The nodes taken, the node made; nothing is taken only if the expression is one of those that are mapped as they
are. -/
def MapsTo (sk : JStr → Bool) (e : Arith) (st : NStack) (n : Node) (st' : NStack) : Prop :=
  ∃ ps, st = ps ++ st' ∧ (∀ p ∈ ps, TransGen NodePart p n) ∧
    (∀ a ∈ n.leaves sk, a ∈ e.items ∨ ∃ p ∈ ps, a ∈ p.leaves sk) ∧ (ps ≠ [] ∨ HasItem sk e.items n) ∧
    (ps = [] → e.simpleArg = true ∧ n = e.node)

def MapsAllTo (sk : JStr → Bool) (es : List Arith) (st : NStack) (ns : List Node) (st' : NStack) : Prop :=
  ∃ ps, st = ps ++ st' ∧ (∀ p ∈ ps, ∃ n ∈ ns, TransGen NodePart p n) ∧
    (∀ n ∈ ns, ∀ a ∈ n.leaves sk, a ∈ Arith.itemsAll es ∨ ∃ p ∈ ps, a ∈ p.leaves sk) ∧
    (es ≠ [] → ps ≠ [] ∨ ∃ n ∈ ns, HasItem sk (Arith.itemsAll es) n) ∧
    (ps = [] → Arith.simpleArgs es = true ∧ ns = Arith.nodes es)

theorem popN_inv {st st' : NStack} {n : Node} (h : popN st = .ok (n, st')) : st = n :: st' := by
  cases st with
  | nil => cases h
  | cons m st => injection h with h; injection h with h1 h2; rw [h1, h2]

mutual
theorem map_takes {sk : JStr → Bool} (df : Option JStr) : (e : Arith) → e.Valid → Clear sk e.items → ∀ {st st' n},
    mapNode df e.tree st = .ok (n, st') → MapsTo sk e st n st'
  | .field f, hv, hc, st, st', n, h => by
    rw [atom_map hv rfl] at h
    injection h with h; injection h with h1 h2
    subst h1; subst h2
    refine ⟨[], rfl, by simp, ?_, .inr ?_, fun _ => ⟨rfl, rfl⟩⟩
    · intro a ha; rw [arith_leaves _ hc] at ha; exact .inl ha
    · refine ⟨.name f, ?_, by simp [Arith.items]⟩
      rw [arith_leaves _ hc]; simp [Arith.items]
  | .lit l, hv, hc, st, st', n, h => by
    rw [atom_map hv rfl] at h
    injection h with h; injection h with h1 h2
    subst h1; subst h2
    refine ⟨[], rfl, by simp, ?_, .inr ?_, fun _ => ⟨rfl, rfl⟩⟩
    · intro a ha; rw [arith_leaves _ hc] at ha; exact .inl ha
    · refine ⟨.value l.value, ?_, by simp [Arith.items]⟩
      rw [arith_leaves _ hc]; simp [Arith.items]
  | .group e, _, _, st, st', n, h => by rw [Arith.tree, mapNode] at h; cases h
  | .neg e, _, _, st, st', n, h => by rw [Arith.tree, mapNode] at h; cases h
  | .op o l r, hv, hc, st, st', n, h => by
    rw [Arith.Valid] at hv
    have hcl : Clear sk l.items := fun f hf => hc f (by simp [Arith.items, hf])
    have hcr : Clear sk r.items := fun f hf => hc f (by simp [Arith.items, hf])
    rw [Arith.tree, mapNode_arith, isAtom_isTypes, isAtom_isTypes] at h
    by_cases hl : l.isAtom = true
    · obtain ⟨a, ha⟩ := List.exists_mem_of_ne_nil _ (items_ne l hv.1)
      have ha' : a ∈ l.node.leaves sk := by rw [arith_leaves l hcl]; exact ha
      by_cases hr : r.isAtom = true
      · rw [if_pos (by rw [hl, hr]; rfl), atom_map hv.1 hl, ok_bind] at h
        simp only at h
        rw [atom_map hv.2 hr, ok_bind] at h
        injection h with h; injection h with h1 h2
        subst h1; subst h2
        refine ⟨[], rfl, by simp, ?_, .inr ⟨a, by simp [Node.leaves, ha'], by simp [Arith.items, ha]⟩, fun _ => ⟨?_, rfl⟩⟩
        · intro x hx
          rw [Node.leaves, arith_leaves l hcl, arith_leaves r hcr] at hx
          exact .inl hx
        · rw [Arith.simpleArg, hl, hr]; rfl
      · rw [if_neg (by simp [hr]), if_pos hl, atom_map hv.1 hl, ok_bind] at h
        simp only at h
        obtain ⟨⟨b, st1⟩, h1, h2⟩ := bind_ok_inv h
        injection h2 with h2; injection h2 with h2 h3
        subst h2; subst h3
        refine ⟨[b], popN_inv h1, ?_, ?_, .inl (by simp), by simp⟩
        · intro p hp; rw [List.mem_singleton] at hp; subst hp; exact .single .right
        · intro x hx
          rw [Node.leaves, List.mem_append] at hx
          rcases hx with hx | hx
          · rw [arith_leaves l hcl] at hx; exact .inl (by simp [Arith.items, hx])
          · exact .inr ⟨b, by simp, hx⟩
    · by_cases hr : r.isAtom = true
      · rw [if_neg (by simp [hl]), if_neg hl, if_pos hr, atom_map hv.2 hr, ok_bind] at h
        simp only at h
        obtain ⟨⟨b, st1⟩, h1, h2⟩ := bind_ok_inv h
        injection h2 with h2; injection h2 with h2 h3
        subst h2; subst h3
        refine ⟨[b], popN_inv h1, ?_, ?_, .inl (by simp), by simp⟩
        · intro p hp; rw [List.mem_singleton] at hp; subst hp; exact .single .left
        · intro x hx
          rw [Node.leaves, List.mem_append] at hx
          rcases hx with hx | hx
          · exact .inr ⟨b, by simp, hx⟩
          · rw [arith_leaves r hcr] at hx; exact .inl (by simp [Arith.items, hx])
      · rw [if_neg (by simp [hl]), if_neg hl, if_neg hr] at h
        match st, h with
        | b :: a :: st1, h =>
          injection h with h; injection h with h1 h2
          subst h1; subst h2
          refine ⟨[b, a], rfl, ?_, ?_, .inl (by simp), by simp⟩
          · intro p hp
            simp only [List.mem_cons, List.not_mem_nil, or_false] at hp
            rcases hp with rfl | rfl
            · exact .single .right
            · exact .single .left
          · intro x hx
            rw [Node.leaves, List.mem_append] at hx
            rcases hx with hx | hx
            · exact .inr ⟨a, by simp, hx⟩
            · exact .inr ⟨b, by simp, hx⟩
  | .call f args, hv, hc, st, st', n, h => by
    rw [Arith.Valid] at hv
    rw [Arith.tree, mapNode] at h
    obtain ⟨⟨ns, st1⟩, h1, h2⟩ := bind_ok_inv h
    injection h2 with h2; injection h2 with h2 h3
    subst h2; subst h3
    obtain ⟨ps, e1, e2, e3, e4, e5⟩ := maps_take df args hv.2 hc h1
    refine ⟨ps, e1, ?_, ?_, ?_, ?_⟩
    · intro p hp
      obtain ⟨n, hn, h⟩ := e2 p hp
      exact h.tail (.item hn)
    · intro x hx
      rw [Node.leaves] at hx
      obtain ⟨n, hn, hx⟩ := mem_leavesAll.mp hx
      exact e3 n hn x hx
    · rcases e4 hv.1 with h | ⟨n, hn, a, ha, ha'⟩
      · exact .inl h
      · exact .inr ⟨a, by rw [Node.leaves]; exact mem_leavesAll.mpr ⟨n, hn, ha⟩, ha'⟩
    · intro hp
      obtain ⟨h1, h2⟩ := e5 hp
      exact ⟨by rw [Arith.simpleArg]; exact h1, by rw [Arith.node, h2]⟩
theorem maps_take {sk : JStr → Bool} (df : Option JStr) : (es : List Arith) → Arith.AllValid es →
    Clear sk (Arith.itemsAll es) → ∀ {st st' ns}, mapNodes df (Arith.trees es) st = .ok (ns, st') → MapsAllTo sk es st ns st'
  | [], _, _, st, st', ns, h => by
    rw [Arith.trees, mapNodes] at h
    injection h with h; injection h with h1 h2
    subst h1; subst h2
    exact ⟨[], rfl, by simp, by simp, by simp, fun _ => ⟨rfl, rfl⟩⟩
  | e :: es, hv, hc, st, st', ns, h => by
    rw [Arith.AllValid] at hv
    have hce : Clear sk e.items := fun f hf => hc f (by simp [Arith.itemsAll, hf])
    have hces : Clear sk (Arith.itemsAll es) := fun f hf => hc f (by simp [Arith.itemsAll, hf])
    rw [Arith.trees, mapNodes] at h
    obtain ⟨⟨n, st1⟩, h1, h2⟩ := bind_ok_inv h
    obtain ⟨⟨ns', st2⟩, h3, h4⟩ := bind_ok_inv h2
    injection h4 with h4; injection h4 with h4 h5
    subst h4; subst h5
    obtain ⟨ps, e1, e2, e3, e4, e5⟩ := map_takes df e hv.1 hce h1
    obtain ⟨qs, f1, f2, f3, f4, f5⟩ := maps_take df es hv.2 hces h3
    refine ⟨ps ++ qs, by rw [e1, f1, List.append_assoc], ?_, ?_, ?_, ?_⟩
    · intro p hp
      rcases List.mem_append.mp hp with hp | hp
      · exact ⟨n, by simp, e2 p hp⟩
      · obtain ⟨m, hm, h⟩ := f2 p hp
        exact ⟨m, by simp [hm], h⟩
    · intro m hm x hx
      rcases List.mem_cons.mp hm with rfl | hm
      · rcases e3 x hx with h | ⟨p, hp, h⟩
        · exact .inl (by simp [Arith.itemsAll, h])
        · exact .inr ⟨p, by simp [hp], h⟩
      · rcases f3 m hm x hx with h | ⟨p, hp, h⟩
        · exact .inl (by simp [Arith.itemsAll, h])
        · exact .inr ⟨p, by simp [hp], h⟩
    · intro _
      rcases e4 with h | ⟨a, ha, ha'⟩
      · exact .inl (fun e => h (List.append_eq_nil_iff.mp e).1)
      · exact .inr ⟨n, by simp, a, ha, by simp [Arith.itemsAll, ha']⟩
    · intro hp
      obtain ⟨hp, hq⟩ := List.append_eq_nil_iff.mp hp
      obtain ⟨h1, h2⟩ := e5 hp
      obtain ⟨h3, h4⟩ := f5 hq
      exact ⟨by rw [Arith.simpleArgs, h1, h3]; rfl, by rw [Arith.nodes, h2, h4]⟩
end

theorem MapsTo.absorbs {sk : JStr → Bool} {e : Arith} {st st' : NStack} {n : Node} (h : MapsTo sk e st n st') :
    Absorbs sk e.items st n st' := by
  obtain ⟨ps, e1, e2, e3, e4, _⟩ := h
  exact ⟨ps, e1, e2, e3, e4⟩

/-! ### Walking -/

/-- A sequence of steps. -/
inductive StackRun (sk : JStr → Bool) (E : List Item) : NStack → NStack → Prop
  | refl (st : NStack) : StackRun sk E st st
  | step {st st1 st2 : NStack} {n : Node} : StackRun sk E st st1 → Absorbs sk E st1 n st2 → n.isCompound = true →
      StackRun sk E st (n :: st2)

theorem Absorbs.mono {sk : JStr → Bool} {E E' : List Item} (h : ∀ a ∈ E, a ∈ E') {st st' : NStack} {n : Node}
    (ht : Absorbs sk E st n st') : Absorbs sk E' st n st' := by
  obtain ⟨ps, e1, e2, e3, e4⟩ := ht
  refine ⟨ps, e1, e2, fun a ha => (e3 a ha).imp (h a) id, e4.imp id ?_⟩
  rintro ⟨a, ha, ha'⟩
  exact ⟨a, ha, h a ha'⟩

theorem StackRun.mono {sk : JStr → Bool} {E E' : List Item} (h : ∀ a ∈ E, a ∈ E') {st st' : NStack}
    (hr : StackRun sk E st st') : StackRun sk E' st st' := by
  induction hr with
  | refl => exact .refl _
  | step _ h2 h3 ih => exact .step ih (h2.mono h) h3

theorem StackRun.trans {sk : JStr → Bool} {E : List Item} {st st1 st2 : NStack} (h : StackRun sk E st st1)
    (h' : StackRun sk E st1 st2) : StackRun sk E st st2 := by
  induction h' with
  | refl => exact h
  | step _ h2 h3 ih => exact .step ih h2 h3

theorem walk_atom {df : Option JStr} {e : Arith} (ha : e.isAtom = true) {s s' : LState}
    (h : walk df e.tree s = .ok s') : s'.stack = s.stack := by
  cases e with
  | field f => rw [Arith.tree, walk] at h; injection h with h; rw [← h]
  | lit l => rw [Arith.tree, walk] at h; injection h with h; rw [← h]
  | _ => cases ha

/-- What leaving a negation does. -/
theorem exitNeg_inv {df : Option JStr} {e : Arith} (hv : e.Valid) {s s' : LState}
    (h : exitNeg df e.tree s = .ok s') :
    (∃ n st, s.stack = n :: st ∧ n.isArithNode = true ∧ s'.stack = .neg n :: st) ∨
    (e.isAtom = true ∧ (∀ n st, s.stack = n :: st → n.isArithNode = false) ∧ s'.stack = .neg e.node :: s.stack) := by
  have leaf : ∀ {s'' : LState}, (match e.tree with
      | .types t em => do
        let n ← mapTypes df t em
        pure { s with stack := .neg n :: s.stack }
      | _ => .error .classCast : Result LState) = .ok s'' → e.isAtom = true ∧ s''.stack = .neg e.node :: s.stack := by
    intro s'' h
    have key : ∀ {t : Token}, e.tree = .types t false → e.isAtom = true → mapTypes df t false = .ok e.node := by
      intro t ht ha
      have := atom_map (df := df) hv ha []
      rw [ht, mapNode] at this
      obtain ⟨n, h1, h2⟩ := bind_ok_inv this
      injection h2 with h2; injection h2 with h2
      rw [h1, h2]
    cases e with
    | field f =>
      rw [Arith.tree] at h
      simp only at h
      rw [key rfl rfl, ok_bind] at h
      injection h with h; exact ⟨rfl, by rw [← h]⟩
    | lit l =>
      rw [Arith.tree] at h
      simp only at h
      rw [key rfl rfl, ok_bind] at h
      injection h with h; exact ⟨rfl, by rw [← h]⟩
    | group e => rw [Arith.tree] at h; cases h
    | op o l r => rw [Arith.tree] at h; cases h
    | neg e => rw [Arith.tree] at h; cases h
    | call f args => rw [Arith.tree] at h; cases h
  unfold exitNeg at h
  cases hs : s.stack with
  | nil =>
    simp only [hs] at h
    have := leaf (by rw [hs]; exact h)
    exact .inr ⟨this.1, by simp, by rw [this.2, hs]⟩
  | cons n st =>
    simp only [hs] at h
    by_cases hn : n.isArithNode = true
    · rw [if_pos hn] at h
      injection h with h
      exact .inl ⟨n, st, rfl, hn, by rw [← h]⟩
    · rw [if_neg hn] at h
      have := leaf (by rw [hs]; exact h)
      refine .inr ⟨this.1, ?_, by rw [this.2, hs]⟩
      intro m st' e
      injection e with e _
      rw [← e]; simpa using hn

theorem exitMapped_inv {df : Option JStr} {t : Tree} {s s' : LState} (h : exitMapped df t s = .ok s') :
    ∃ n st, mapNode df t s.stack = .ok (n, st) ∧ s'.stack = n :: st := by
  unfold exitMapped at h
  obtain ⟨⟨n, st⟩, h1, h2⟩ := bind_ok_inv h
  injection h2 with h2
  exact ⟨n, st, h1, by rw [← h2]⟩

theorem map_compound {df : Option JStr} {e : Arith} (ha : e.isAtom = false) {st st' : NStack} {n : Node}
    (h : mapNode df e.tree st = .ok (n, st')) : n.isCompound = true := by
  cases e with
  | field f => cases ha
  | lit l => cases ha
  | group e => rw [Arith.tree, mapNode] at h; cases h
  | neg e => rw [Arith.tree, mapNode] at h; cases h
  | call f args =>
    rw [Arith.tree, mapNode] at h
    obtain ⟨x, h1, h2⟩ := bind_ok_inv h
    injection h2 with h2; injection h2 with h2 _
    rw [← h2]; rfl
  | op o l r =>
    rw [Arith.tree, mapNode_arith] at h
    split at h
    · obtain ⟨x, h1, h2⟩ := bind_ok_inv h
      obtain ⟨y, h3, h4⟩ := bind_ok_inv h2
      injection h4 with h4; injection h4 with h4 _
      rw [← h4]; rfl
    · split at h
      · obtain ⟨x, h1, h2⟩ := bind_ok_inv h
        obtain ⟨y, h3, h4⟩ := bind_ok_inv h2
        injection h4 with h4; injection h4 with h4 _
        rw [← h4]; rfl
      · split at h
        · obtain ⟨x, h1, h2⟩ := bind_ok_inv h
          obtain ⟨y, h3, h4⟩ := bind_ok_inv h2
          injection h4 with h4; injection h4 with h4 _
          rw [← h4]; rfl
        · split at h
          · injection h with h; injection h with h _
            rw [← h]; rfl
          · cases h

mutual
theorem walk_run {sk : JStr → Bool} (df : Option JStr) : (e : Arith) → e.Valid → Clear sk e.items → ∀ {s s'},
    walk df e.tree s = .ok s' → StackRun sk e.items s.stack s'.stack
  | .field f, _, _, s, s', h => by rw [walk_atom rfl h]; exact .refl _
  | .lit l, _, _, s, s', h => by rw [walk_atom rfl h]; exact .refl _
  | .group e, hv, hc, s, s', h => by
    rw [Arith.Valid] at hv
    rw [Arith.tree, walk] at h
    exact walk_run df e hv hc h
  | .neg e, hv, hc, s, s', h => by
    rw [Arith.Valid] at hv
    rw [Arith.tree, walk] at h
    obtain ⟨s1, h1, h2⟩ := bind_ok_inv h
    have r1 := walk_run df e hv hc h1
    rcases exitNeg_inv hv h2 with ⟨n, st, e1, e2, e3⟩ | ⟨ha, -, e3⟩
    · rw [e3]
      rw [e1] at r1
      refine .step r1 ⟨[n], rfl, ?_, ?_, .inl (by simp)⟩ rfl
      · intro p hp; rw [List.mem_singleton] at hp; subst hp; exact .single .neg
      · intro a ha; exact .inr ⟨n, by simp, by simpa [Node.leaves] using ha⟩
    · rw [e3]
      refine .step r1 ⟨[], rfl, by simp, ?_, .inr ?_⟩ rfl
      · intro a ha
        rw [Node.leaves, arith_leaves e hc] at ha
        exact .inl ha
      · obtain ⟨a, ha⟩ := List.exists_mem_of_ne_nil _ (items_ne e hv)
        exact ⟨a, by rw [Node.leaves, arith_leaves e hc]; exact ha, ha⟩
  | .op o l r, hv, hc, s, s', h => by
    have hv0 := hv
    rw [Arith.Valid] at hv
    have hcl : Clear sk l.items := fun f hf => hc f (by simp [Arith.items, hf])
    have hcr : Clear sk r.items := fun f hf => hc f (by simp [Arith.items, hf])
    rw [Arith.tree, walk] at h
    obtain ⟨s1, h1, h2⟩ := bind_ok_inv h
    obtain ⟨s2, h3, h4⟩ := bind_ok_inv h2
    obtain ⟨n, st, h5, h6⟩ := exitMapped_inv h4
    have r1 := (walk_run df l hv.1 hcl h1).mono (E' := (Arith.op o l r).items) (by simp [Arith.items]; tauto)
    have r2 := (walk_run df r hv.2 hcr h3).mono (E' := (Arith.op o l r).items) (by simp [Arith.items]; tauto)
    rw [h6]
    exact .step (r1.trans r2) (map_takes df (.op o l r) hv0 hc h5).absorbs (map_compound (e := .op o l r) rfl h5)
  | .call f args, hv, hc, s, s', h => by
    have hv0 := hv
    rw [Arith.Valid] at hv
    rw [Arith.tree, walk] at h
    obtain ⟨s1, h1, h2⟩ := bind_ok_inv h
    obtain ⟨n, st, h5, h6⟩ := exitMapped_inv h2
    rw [h6]
    exact .step (walks_run df args hv.2 hc h1) (map_takes df (.call f args) hv0 hc h5).absorbs
      (map_compound (e := .call f args) rfl h5)
theorem walks_run {sk : JStr → Bool} (df : Option JStr) : (es : List Arith) → Arith.AllValid es →
    Clear sk (Arith.itemsAll es) → ∀ {s s'}, walkAll df (Arith.trees es) s = .ok s' →
    StackRun sk (Arith.itemsAll es) s.stack s'.stack
  | [], _, _, s, s', h => by
    rw [Arith.trees, walkAll] at h
    injection h with h; rw [h]; exact .refl _
  | e :: es, hv, hc, s, s', h => by
    rw [Arith.AllValid] at hv
    rw [Arith.trees, walkAll] at h
    obtain ⟨s1, h1, h2⟩ := bind_ok_inv h
    have r1 := (walk_run df e hv.1 (fun f hf => hc f (by simp [Arith.itemsAll, hf])) h1).mono
      (E' := Arith.itemsAll (e :: es)) (by simp [Arith.itemsAll]; tauto)
    have r2 := (walks_run df es hv.2 (fun f hf => hc f (by simp [Arith.itemsAll, hf])) h2).mono
      (E' := Arith.itemsAll (e :: es)) (by simp [Arith.itemsAll]; tauto)
    exact r1.trans r2
end

end BoolParser
