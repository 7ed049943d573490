import Verif.Model.Listener
import Verif.Lemmas.Parsing
/-!
# What the listener builds

For a large class of trees (`Sup`) the listener builds the node that the tree stands for (`nodeOf`). The
class has to exclude the trees on which the listener's use of its stack goes wrong.
-/

namespace BoolParser

/-- The outcome of a computation that is known to succeed. -/
def okOr {α : Type} (a : α) : Result α → α
  | .ok x => x
  | .error _ => a

def isOkR {α : Type} : Result α → Bool
  | .ok _ => true
  | .error _ => false

theorem okOr_eq {α : Type} {a : α} {r : Result α} (h : isOkR r = true) : r = .ok (okOr a r) := by
  cases r with
  | ok x => rfl
  | error e => cases h

/-- The value of a literal token. -/
def tokVal (t : Token) : Value := okOr .null (convertValue t.text (tokType t))

/-- The node of a `types` context. -/
def tokNode (df : Option JStr) (t : Token) (empty : Bool) : Node := okOr (.field none) (mapTypes df t empty)

/-- The token can be converted (digits in range and so on). -/
def tokOk (t : Token) : Bool := isOkR (convertValue t.text (tokType t))

/-- The value of a `types` tree. -/
def Tree.tokVal : Tree → Value
  | .types t _ => BoolParser.tokVal t
  | _ => .null

/-- The `types` tree can be converted. -/
def Tree.tokOk : Tree → Bool
  | .types t _ => BoolParser.tokOk t
  | _ => false

mutual
/-- The node a tree stands for. -/
def nodeOf (df : Option JStr) : Tree → Node
  | .types t e => tokNode df t e
  | .paren t => nodeOf df t
  | .not_ t => if t.isTypes then .not_ (.unary t.startType t.tokVal)
      else .not_ (nodeOf df t)
  | .cmp op l r => .cmp (nodeOf df l) (nodeOf df r) op (if l.isTypes && !r.isTypes then l.startType else r.startType)
  | .neg t => .neg (nodeOf df t)
  | .arith op l r => .arith op (nodeOf df l) (nodeOf df r)
  | .func f items => .func f (nodesOf df items)
  | .bin c l r => if c then .and_ (nodeOf df l) (nodeOf df r) else .or_ (nodeOf df l) (nodeOf df r)
  | .to_ f lo hi => .range f.text (tokVal lo) (tokVal hi) (tokType lo) (tokType hi)
  | .in_ f ng items => if ng then .not_ (.inn f.text (nodesOf df items)) else .inn f.text (nodesOf df items)
  | .array f op items => .array f.text op (nodesOf df items)
def nodesOf (df : Option JStr) : List Tree → List Node
  | [] => []
  | t :: ts => nodeOf df t :: nodesOf df ts
end

mutual
/-- What walking a tree leaves on the stack, top first. -/
def pushes (df : Option JStr) : Tree → List Node
  | .types _ _ => []
  | .paren t => pushes df t
  | .not_ t => nodeOf df (.not_ t) :: (pushes df t).tail
  | .cmp op l r => nodeOf df (.cmp op l r) ::
      (if l.isTypes || r.isTypes then (pushes df r).tail ++ (pushes df l).tail else pushes df r ++ pushes df l)
  | .neg t => nodeOf df (.neg t) :: (pushes df t).tail
  | .arith op l r => nodeOf df (.arith op l r) :: ((pushes df r).tail ++ (pushes df l).tail)
  | .func f items => nodeOf df (.func f items) :: pushesAll df items
  | .bin c l r => nodeOf df (.bin c l r) :: ((pushes df r).tail ++ (pushes df l).tail)
  | .to_ f lo hi => [nodeOf df (.to_ f lo hi)]
  | .in_ f ng items => nodeOf df (.in_ f ng items) :: pushesAll df items
  | .array f op items => nodeOf df (.array f op items) :: pushesAll df items
def pushesAll (df : Option JStr) : List Tree → List Node
  | [] => []
  | t :: ts => pushesAll df ts ++ pushes df t
end

/-- Class of the node on top of the stack. -/
inductive Top where
  | empty | arith | clean | other
deriving DecidableEq, Repr

def Node.cls (n : Node) : Top := if n.isArithNode then .arith else if n.isCmpOrBool then .clean else .other

def topOf : NStack → Top
  | [] => .empty
  | n :: _ => n.cls

/-- Class of the node of a compound tree. -/
def Tree.cls : Tree → Top
  | .types _ _ => .empty
  | .paren t => t.cls
  | .not_ _ => .clean
  | .cmp _ _ _ => .clean
  | .neg _ => .arith
  | .arith _ _ _ => .arith
  | .func _ _ => .other
  | .bin _ _ _ => .clean
  | .to_ _ _ _ => .other
  | .in_ _ ng _ => if ng then .clean else .other
  | .array _ _ _ => .other

/-- Class of the top after walking the tree. -/
def Tree.after (top : Top) (t : Tree) : Top := if t.isTypes then top else t.cls

/-- Can the `types` context be mapped? -/
def typesOk (t : Token) (e : Bool) : Bool := t.kind == .field || (e || tokOk t)

mutual
/-- Items that are mapped without touching the stack. -/
def argOk : Tree → Bool
  | .types t e => typesOk t e
  | .arith _ l r => (l.isTypes && r.isTypes) && (argOk l && argOk r)
  | .func _ items => argsOk items
  | _ => false
def argsOk : List Tree → Bool
  | [] => true
  | t :: ts => argOk t && argsOk ts
end

/-- Walking the tree leaves at most its own node. -/
def Tree.lean : Tree → Bool
  | .types _ _ => true
  | .paren t => t.lean
  | .not_ t => t.lean
  | .cmp _ l r => (l.isTypes || r.isTypes) && (l.lean && r.lean)
  | .neg t => t.lean
  | .arith _ l r => l.lean && r.lean
  | .func _ items => items.all Tree.isTypes
  | .bin _ l r => l.lean && r.lean
  | .to_ _ _ _ => true
  | .in_ _ _ items => items.all Tree.isTypes
  | .array _ _ items => items.all Tree.isTypes

/-- Trees that the listener handles correctly when the top of its stack is of class `top`. -/
def Sup (top : Top) : Tree → Bool
  | .types t e => typesOk t e
  | .paren t => !t.isTypes && Sup top t
  | .not_ t =>
    if t.isTypes then top == .empty && t.tokOk
    else Sup top t
  | .cmp _ l r =>
    if l.isTypes && r.isTypes then Sup top l && (Sup top r && (top == .empty || top == .clean))
    else if l.isTypes then Sup top l && (Sup top r && (r.isParen || r.cls != .clean))
    else if r.isTypes then Sup top l && (Sup top r && (l.isParen || l.cls != .clean))
    else argOk l && argOk r
  | .neg t =>
    if t.isTypes then Sup top t && top != .arith
    else Sup top t && t.cls == .arith
  | .arith _ l r => Sup top l && (Sup (l.after top) r && (l.isTypes || (r.isTypes || r.lean)))
  | .func _ items => argsOk items
  | .bin _ l r => !l.isTypes && (!r.isTypes && (Sup top l && (Sup (l.after top) r && r.lean)))
  | .to_ _ lo hi => tokOk lo && tokOk hi
  | .in_ _ _ items => argsOk items
  | .array _ _ items => argsOk items

theorem typesOk_map {df : Option JStr} {t : Token} {e : Bool} (h : typesOk t e = true) :
    mapTypes df t e = .ok (tokNode df t e) := by
  apply okOr_eq
  unfold mapTypes
  by_cases hf : t.kind = .field
  · simp [hf, isOkR]
  · rw [if_neg hf]
    cases e with
    | true => rfl
    | false =>
      simp only [typesOk, Bool.or_eq_true, beq_iff_eq, hf, false_or, Bool.false_eq_true] at h
      have := okOr_eq (a := Value.null) h
      rw [this]; rfl

theorem tokOk_conv {t : Token} (h : tokOk t = true) : convertValue t.text (tokType t) = .ok (tokVal t) :=
  okOr_eq h

/-! ### Mapping without the stack -/

theorem mapNode_arith (df : Option JStr) (op : ArithOp) (l r : Tree) (st : NStack) :
    mapNode df (.arith op l r) st =
    if l.isTypes && r.isTypes then do
      let (a, st) ← mapNode df l st
      let (b, st) ← mapNode df r st
      pure (.arith op a b, st)
    else if l.isTypes then do
      let (a, st) ← mapNode df l st
      let (b, st) ← popN st
      pure (.arith op a b, st)
    else if r.isTypes then do
      let (b, st) ← mapNode df r st
      let (a, st) ← popN st
      pure (.arith op a b, st)
    else
      match st with
      | b :: a :: st => .ok (.arith op a b, st)
      | _ => .error .invalidExpression := by
  rfl

mutual
theorem map_arg (df : Option JStr) : (t : Tree) → argOk t = true → ∀ st, mapNode df t st = .ok (nodeOf df t, st)
  | .types t e, h, st => by
    rw [argOk] at h
    rw [mapNode, typesOk_map h]; rfl
  | .arith op l r, h, st => by
    rw [argOk, Bool.and_eq_true, Bool.and_eq_true (argOk l)] at h
    rw [mapNode_arith, if_pos h.1, map_arg df l h.2.1 st]
    show (mapNode df r st >>= fun _ => _) = _
    rw [map_arg df r h.2.2 st]
    rfl
  | .func g items, h, st => by
    rw [argOk] at h
    rw [mapNode, map_args df items h st]; rfl
  | .paren _, h, _ => by simp [argOk] at h
  | .not_ _, h, _ => by simp [argOk] at h
  | .cmp _ _ _, h, _ => by simp [argOk] at h
  | .neg _, h, _ => by simp [argOk] at h
  | .bin _ _ _, h, _ => by simp [argOk] at h
  | .to_ _ _ _, h, _ => by simp [argOk] at h
  | .in_ _ _ _, h, _ => by simp [argOk] at h
  | .array _ _ _, h, _ => by simp [argOk] at h
theorem map_args (df : Option JStr) : (ts : List Tree) → argsOk ts = true → ∀ st,
    mapNodes df ts st = .ok (nodesOf df ts, st)
  | [], _, _ => rfl
  | t :: ts, h, st => by
    rw [argsOk, Bool.and_eq_true] at h
    rw [mapNodes, map_arg df t h.1 st]
    show (mapNodes df ts st >>= fun _ => _) = _
    rw [map_args df ts h.2 st]
    rfl
end

/-! ### Walking -/

/-- Walking `t` from `s` pushes `ps` and nothing else happens to the stack. -/
def WalksTo (df : Option JStr) (t : Tree) (s : LState) (ps : List Node) : Prop :=
  ∃ last cnt, walk df t s = .ok ⟨ps ++ s.stack, last, cnt⟩

def WalksAllTo (df : Option JStr) (ts : List Tree) (s : LState) (ps : List Node) : Prop :=
  ∃ last cnt, walkAll df ts s = .ok ⟨ps ++ s.stack, last, cnt⟩

theorem isTypes_pushes {df : Option JStr} {t : Tree} (h : t.isTypes = true) : pushes df t = [] := by
  cases t <;> first | rfl | cases h

theorem walk_types {df : Option JStr} {t : Tree} (h : t.isTypes = true) (s : LState) :
    WalksTo df t s [] := by
  cases t <;> try cases h
  rename_i u e
  exact ⟨some u, s.count + 1, rfl⟩

mutual
theorem walk_arg (df : Option JStr) : (t : Tree) → argOk t = true → ∀ s, WalksTo df t s (pushes df t)
  | .types t e, h, s => ⟨some t, s.count + 1, rfl⟩
  | .arith op l r, h, s => by
    have h0 := h
    rw [argOk, Bool.and_eq_true, Bool.and_eq_true, Bool.and_eq_true (argOk l)] at h
    obtain ⟨l1, c1, h1⟩ := walk_types (df := df) h.1.1 s
    obtain ⟨l2, c2, h2⟩ := walk_types (df := df) h.1.2 ⟨[] ++ s.stack, l1, c1⟩
    refine ⟨l2, c2, ?_⟩
    rw [walk, h1]
    show (walk df r _ >>= fun s => _) = _
    rw [h2]
    show exitMapped df (.arith op l r) _ = _
    rw [exitMapped, map_arg df _ h0]
    rw [pushes, isTypes_pushes h.1.1, isTypes_pushes h.1.2]
    rfl
  | .func g items, h, s => by
    have h0 := h
    rw [argOk] at h
    obtain ⟨l1, c1, h1⟩ := walk_args df items h s
    refine ⟨l1, c1, ?_⟩
    rw [walk, h1]
    show exitMapped df (.func g items) _ = _
    rw [exitMapped, map_arg df _ h0]
    rfl
  | .paren _, h, _ => by simp [argOk] at h
  | .not_ _, h, _ => by simp [argOk] at h
  | .cmp _ _ _, h, _ => by simp [argOk] at h
  | .neg _, h, _ => by simp [argOk] at h
  | .bin _ _ _, h, _ => by simp [argOk] at h
  | .to_ _ _ _, h, _ => by simp [argOk] at h
  | .in_ _ _ _, h, _ => by simp [argOk] at h
  | .array _ _ _, h, _ => by simp [argOk] at h
theorem walk_args (df : Option JStr) : (ts : List Tree) → argsOk ts = true → ∀ s,
    WalksAllTo df ts s (pushesAll df ts)
  | [], _, s => ⟨s.last, s.count, rfl⟩
  | t :: ts, h, s => by
    rw [argsOk, Bool.and_eq_true] at h
    obtain ⟨l1, c1, h1⟩ := walk_arg df t h.1 s
    obtain ⟨l2, c2, h2⟩ := walk_args df ts h.2 ⟨pushes df t ++ s.stack, l1, c1⟩
    refine ⟨l2, c2, ?_⟩
    rw [walkAll, h1]
    show walkAll df ts _ = _
    rw [h2, pushesAll, List.append_assoc]
end

/-- A compound tree pushes its node. -/
theorem pushes_cons (df : Option JStr) : (t : Tree) → (top : Top) → Sup top t = true → t.isTypes = false →
    pushes df t = nodeOf df t :: (pushes df t).tail ∧ (nodeOf df t).cls = t.cls
  | .paren t, top, h, _ => by
    rw [Sup, Bool.and_eq_true] at h
    have := pushes_cons df t top h.2 (by simpa using h.1)
    rw [pushes, nodeOf, Tree.cls]; exact this
  | .types _ _, _, _, h => by cases h
  | .not_ t, _, _, _ => by
    refine ⟨by rw [pushes]; rfl, ?_⟩
    rw [nodeOf]; split <;> rfl
  | .cmp _ _ _, _, _, _ => ⟨by rw [pushes]; rfl, by rw [nodeOf]; rfl⟩
  | .neg _, _, _, _ => ⟨by rw [pushes]; rfl, by rw [nodeOf]; rfl⟩
  | .arith _ _ _, _, _, _ => ⟨by rw [pushes]; rfl, by rw [nodeOf]; rfl⟩
  | .func _ _, _, _, _ => ⟨by rw [pushes]; rfl, by rw [nodeOf]; rfl⟩
  | .bin c _ _, _, _, _ => ⟨by rw [pushes]; rfl, by rw [nodeOf]; cases c <;> rfl⟩
  | .to_ _ _ _, _, _, _ => ⟨by rw [pushes]; rfl, by rw [nodeOf]; rfl⟩
  | .in_ _ ng _, _, _, _ => ⟨by rw [pushes]; rfl, by rw [nodeOf]; cases ng <;> rfl⟩
  | .array _ _ _, _, _, _ => ⟨by rw [pushes]; rfl, by rw [nodeOf]; rfl⟩

theorem pushesAll_types (df : Option JStr) (ts : List Tree) (h : ts.all Tree.isTypes = true) :
    pushesAll df ts = [] := by
  induction ts with
  | nil => rfl
  | cons t ts ih =>
    simp only [List.all_cons, Bool.and_eq_true] at h
    rw [pushesAll, ih h.2, isTypes_pushes h.1]; rfl

theorem lean_tail (df : Option JStr) : (t : Tree) → t.lean = true → (pushes df t).tail = []
  | .types _ _, _ => rfl
  | .paren t, h => by rw [Tree.lean] at h; rw [pushes]; exact lean_tail df t h
  | .not_ t, h => by rw [Tree.lean] at h; rw [pushes]; exact lean_tail df t h
  | .cmp op l r, h => by
    simp only [Tree.lean, Bool.and_eq_true] at h
    rw [pushes, if_pos h.1, List.tail_cons, lean_tail df l h.2.1, lean_tail df r h.2.2]; rfl
  | .neg t, h => by rw [Tree.lean] at h; rw [pushes]; exact lean_tail df t h
  | .arith op l r, h => by
    simp only [Tree.lean, Bool.and_eq_true] at h
    rw [pushes, List.tail_cons, lean_tail df l h.1, lean_tail df r h.2]; rfl
  | .func _ items, h => by rw [Tree.lean] at h; rw [pushes]; exact pushesAll_types df items h
  | .bin _ l r, h => by
    simp only [Tree.lean, Bool.and_eq_true] at h
    rw [pushes, List.tail_cons, lean_tail df l h.1, lean_tail df r h.2]; rfl
  | .to_ _ _ _, _ => by rw [pushes]; rfl
  | .in_ _ _ items, h => by rw [Tree.lean] at h; rw [pushes]; exact pushesAll_types df items h
  | .array _ _ items, h => by rw [Tree.lean] at h; rw [pushes]; exact pushesAll_types df items h

theorem sup_types {df : Option JStr} {top : Top} {t : Tree} (h : Sup top t = true) (ht : t.isTypes = true)
    (st : NStack) : mapNode df t st = .ok (nodeOf df t, st) := by
  cases t <;> try cases ht
  rename_i u e
  exact map_arg df (.types u e) h st

theorem topOf_after {df : Option JStr} {top : Top} {t : Tree} {st : NStack} (h : Sup top t = true)
    (ht : topOf st = top) : topOf (pushes df t ++ st) = t.after top := by
  rw [Tree.after]
  split
  · rename_i hi; rw [isTypes_pushes hi]; exact ht
  · rename_i hi
    have hc := pushes_cons df t top h (by simpa using hi)
    rw [hc.1]; exact hc.2

/-- The listener pushes the node of a supported tree. -/
theorem walk_sup (df : Option JStr) : (t : Tree) → (top : Top) → Sup top t = true →
    ∀ s : LState, topOf s.stack = top → WalksTo df t s (pushes df t)
  | .types t e, top, h, s, hs => ⟨some t, s.count + 1, rfl⟩
  | .paren t, top, h, s, hs => by
    rw [Sup, Bool.and_eq_true] at h
    obtain ⟨l1, c1, h1⟩ := walk_sup df t top h.2 s hs
    exact ⟨l1, c1, by rw [walk, h1, pushes]⟩
  | .not_ t, top, h, s, hs => by
    by_cases ht : t.isTypes = true
    · simp only [Sup, ht, if_true, Bool.and_eq_true, beq_iff_eq] at h
      cases t <;> first | cases ht | skip
      rename_i u e
      have hst : s.stack = [] := by
        cases hc : s.stack with
        | nil => rfl
        | cons n st =>
          rw [hc] at hs
          exfalso
          have := h.1
          rw [← hs, topOf, Node.cls] at this
          split at this
          · cases this
          · split at this <;> cases this
      refine ⟨some u, s.count + 1, ?_⟩
      rw [walk, walk]
      show exitNot _ = _
      rw [exitNot]
      simp only [hst]
      rw [tokOk_conv h.2, pushes, nodeOf]
      rfl
    · simp only [Sup, ht] at h
      simp only [Bool.false_eq_true, if_false] at h
      obtain ⟨l1, c1, h1⟩ := walk_sup df t top h s hs
      have hc := pushes_cons df t top h (by simpa using ht)
      refine ⟨l1, c1, ?_⟩
      rw [walk, h1]
      show exitNot _ = _
      rw [exitNot]
      simp only
      rw [hc.1]
      simp only [List.cons_append]
      rw [pushes, nodeOf, if_neg ht]
      rfl
  | .cmp op l r, top, h, s, hs => by
    by_cases hl : l.isTypes = true
    · by_cases hr : r.isTypes = true
      · simp only [Sup, hl, hr, Bool.and_self, if_true, Bool.and_eq_true, Bool.or_eq_true, beq_iff_eq] at h
        obtain ⟨l1, c1, h1⟩ := walk_types (df := df) hl s
        obtain ⟨l2, c2, h2⟩ := walk_types (df := df) hr ⟨[] ++ s.stack, l1, c1⟩
        refine ⟨l2, c2, ?_⟩
        rw [walk, h1]
        show (walk df r _ >>= fun s => _) = _
        rw [h2]
        show exitMapped df (.cmp op l r) _ = _
        have hu : useStack s.stack l r = false := by
          cases hc : s.stack with
          | nil => rfl
          | cons n st =>
            rw [hc] at hs
            rw [← hs] at h
            have hlp : l.isParen = false := by cases l <;> first | rfl | cases hl
            have hrp : r.isParen = false := by cases r <;> first | rfl | cases hr
            rw [useStack, hlp, hrp]
            rcases h.2.2 with h3 | h3
            · rw [topOf, Node.cls] at h3
              split at h3
              · cases h3
              · split at h3 <;> cases h3
            · rw [topOf, Node.cls] at h3
              split at h3
              · cases h3
              · split at h3
                · rename_i hb; simp [hb]
                · cases h3
        rw [exitMapped, mapNode]
        simp only [List.nil_append]
        rw [hu]
        simp only [Bool.false_and, Bool.false_eq_true, if_false]
        rw [sup_types h.2.1 hr]
        simp only [bind, Except.bind]
        rw [sup_types h.1 hl]
        rw [pushes, nodeOf, hl, hr, isTypes_pushes hl, isTypes_pushes hr]
        rfl
      · have hr' : r.isTypes = false := by simpa using hr
        simp only [Sup, hl, hr', Bool.and_false, Bool.false_eq_true, if_false, if_true, Bool.and_eq_true] at h
        obtain ⟨l1, c1, h1⟩ := walk_types (df := df) hl s
        obtain ⟨l2, c2, h2⟩ := walk_sup df r top h.2.1 ⟨[] ++ s.stack, l1, c1⟩ hs
        have hc := pushes_cons df r top h.2.1 hr'
        refine ⟨l2, c2, ?_⟩
        rw [walk, h1]
        show (walk df r _ >>= fun s => _) = _
        rw [h2]
        show exitMapped df (.cmp op l r) _ = _
        have hu : useStack (pushes df r ++ s.stack) l r = true := by
          rw [hc.1, List.cons_append, useStack]
          rcases (Bool.or_eq_true _ _).mp h.2.2 with h3 | h3
          · simp [h3]
          · have : (nodeOf df r).isCmpOrBool = false := by
              cases hb : (nodeOf df r).isCmpOrBool with
              | false => rfl
              | true =>
                rw [← hc.2] at h3
                cases hn : nodeOf df r <;> simp [hn, Node.isCmpOrBool] at hb <;>
                  simp [hn, Node.cls, Node.isArithNode, Node.isCmpOrBool] at h3
            simp [this]
        rw [exitMapped, mapNode]
        simp only [List.nil_append]
        rw [hu, hl]
        simp only [Bool.true_and, if_true]
        rw [sup_types h.1 hl, pushes, nodeOf, hl, hr', isTypes_pushes hl, hc.1]
        simp [bind, Except.bind, popN, pure, Except.pure]
    · have hl' : l.isTypes = false := by simpa using hl
      by_cases hr : r.isTypes = true
      · simp only [Sup, hl', hr, Bool.and_true, Bool.false_eq_true, if_false, if_true, Bool.and_eq_true] at h
        obtain ⟨l1, c1, h1⟩ := walk_sup df l top h.1 s hs
        obtain ⟨l2, c2, h2⟩ := walk_types (df := df) hr ⟨pushes df l ++ s.stack, l1, c1⟩
        have hc := pushes_cons df l top h.1 hl'
        refine ⟨l2, c2, ?_⟩
        rw [walk, h1]
        show (walk df r _ >>= fun s => _) = _
        rw [h2]
        show exitMapped df (.cmp op l r) _ = _
        have hu : useStack (pushes df l ++ s.stack) l r = true := by
          rw [hc.1, List.cons_append, useStack]
          rcases (Bool.or_eq_true _ _).mp h.2.2 with h3 | h3
          · simp [h3]
          · have : (nodeOf df l).isCmpOrBool = false := by
              cases hb : (nodeOf df l).isCmpOrBool with
              | false => rfl
              | true =>
                rw [← hc.2] at h3
                cases hn : nodeOf df l <;> simp [hn, Node.isCmpOrBool] at hb <;>
                  simp [hn, Node.cls, Node.isArithNode, Node.isCmpOrBool] at h3
            simp [this]
        rw [exitMapped, mapNode]
        simp only [List.nil_append]
        rw [hu, hl', hr]
        simp only [Bool.and_self, Bool.and_false, Bool.false_eq_true, if_false, if_true]
        rw [sup_types h.2.1 hr, pushes, nodeOf, hl', hr, isTypes_pushes hr, hc.1]
        simp [bind, Except.bind, popN, pure, Except.pure]
      · have hr' : r.isTypes = false := by simpa using hr
        simp only [Sup, hl', hr', Bool.and_self, Bool.false_eq_true, if_false, Bool.and_eq_true] at h
        obtain ⟨l1, c1, h1⟩ := walk_arg df l h.1 s
        obtain ⟨l2, c2, h2⟩ := walk_arg df r h.2 ⟨pushes df l ++ s.stack, l1, c1⟩
        refine ⟨l2, c2, ?_⟩
        rw [walk, h1]
        show (walk df r _ >>= fun s => _) = _
        rw [h2]
        show exitMapped df (.cmp op l r) _ = _
        rw [exitMapped, mapNode, hl', hr']
        simp only [Bool.and_false, Bool.false_eq_true, if_false]
        rw [map_arg df r h.2]
        simp only [bind, Except.bind]
        rw [map_arg df l h.1, pushes, nodeOf, hl', hr']
        simp [pure, Except.pure]
  | .neg t, top, h, s, hs => by
    by_cases ht : t.isTypes = true
    · simp only [Sup, ht, if_true, Bool.and_eq_true, bne_iff_ne, ne_eq] at h
      obtain ⟨l1, c1, h1⟩ := walk_types (df := df) ht s
      refine ⟨l1, c1, ?_⟩
      rw [walk, h1]
      show exitNeg df t _ = _
      have h2 := sup_types (df := df) h.1 ht []
      rw [pushes, nodeOf, isTypes_pushes ht]
      cases t <;> first | cases ht | skip
      rename_i u e
      have hm : mapTypes df u e = .ok (nodeOf df (.types u e)) := typesOk_map h.1
      have leaf : ∀ st : NStack, (do
          let n ← mapTypes df u e
          pure ({ stack := .neg n :: st, last := l1, count := c1 } : LState) : Result LState)
          = .ok ⟨.neg (nodeOf df (.types u e)) :: st, l1, c1⟩ := by
        intro st; rw [hm]; rfl
      rw [exitNeg]
      simp only [List.nil_append]
      cases hst : s.stack with
      | nil => exact leaf _
      | cons n st =>
        have hn : n.isArithNode = false := by
          cases hb : n.isArithNode with
          | false => rfl
          | true =>
            rw [hst] at hs
            exfalso; apply h.2; rw [← hs, topOf, Node.cls, hb]; rfl
        simp only [hn, Bool.false_eq_true, if_false]
        exact leaf _
    · have ht' : t.isTypes = false := by simpa using ht
      simp only [Sup, ht', Bool.false_eq_true, if_false, Bool.and_eq_true, beq_iff_eq] at h
      obtain ⟨l1, c1, h1⟩ := walk_sup df t top h.1 s hs
      have hc := pushes_cons df t top h.1 ht'
      refine ⟨l1, c1, ?_⟩
      rw [walk, h1]
      show exitNeg df t _ = _
      have hn : (nodeOf df t).isArithNode = true := by
        cases hb : (nodeOf df t).isArithNode with
        | true => rfl
        | false =>
          have := hc.2
          rw [h.2, Node.cls, hb] at this
          simp only [Bool.false_eq_true, if_false] at this
          split at this <;> cases this
      rw [hc.1, pushes, nodeOf]
      unfold exitNeg
      simp only [List.cons_append, hn, if_true, List.tail_cons]
  | .arith op l r, top, h, s, hs => by
    simp only [Sup, Bool.and_eq_true] at h
    obtain ⟨l1, c1, h1⟩ := walk_sup df l top h.1 s hs
    obtain ⟨l2, c2, h2⟩ := walk_sup df r _ h.2.1 ⟨pushes df l ++ s.stack, l1, c1⟩ (topOf_after h.1 hs)
    refine ⟨l2, c2, ?_⟩
    rw [walk, h1]
    show (walk df r _ >>= fun s => _) = _
    rw [h2]
    show exitMapped df (.arith op l r) _ = _
    rw [exitMapped, mapNode_arith, pushes, nodeOf]
    simp only
    by_cases hl : l.isTypes = true
    · by_cases hr : r.isTypes = true
      · rw [if_pos (by simp [hl, hr]), sup_types h.1 hl]
        simp only [bind, Except.bind]
        rw [sup_types h.2.1 hr, isTypes_pushes hl, isTypes_pushes hr]
        rfl
      · have hr' : r.isTypes = false := by simpa using hr
        have hc := pushes_cons df r _ h.2.1 hr'
        rw [if_neg (by simp [hr']), if_pos hl, sup_types h.1 hl, isTypes_pushes hl, hc.1]
        simp [bind, Except.bind, popN, pure, Except.pure]
    · have hl' : l.isTypes = false := by simpa using hl
      have hcl := pushes_cons df l _ h.1 hl'
      by_cases hr : r.isTypes = true
      · rw [if_neg (by simp [hl']), if_neg hl, if_pos hr, sup_types h.2.1 hr, isTypes_pushes hr, hcl.1]
        simp [bind, Except.bind, popN, pure, Except.pure]
      · have hr' : r.isTypes = false := by simpa using hr
        have hc := pushes_cons df r _ h.2.1 hr'
        have hlean : r.lean = true := by simpa [hl', hr'] using h.2.2
        rw [if_neg (by simp [hl']), if_neg hl, if_neg hr, hc.1, lean_tail df r hlean, hcl.1]
        simp [bind, Except.bind, pure, Except.pure]
  | .func f items, top, h, s, hs => walk_arg df (.func f items) h s
  | .bin c l r, top, h, s, hs => by
    simp only [Sup, Bool.and_eq_true, Bool.not_eq_true'] at h
    obtain ⟨hl', hr', hl, hr, hlean⟩ := h
    obtain ⟨l1, c1, h1⟩ := walk_sup df l top hl s hs
    obtain ⟨l2, c2, h2⟩ := walk_sup df r _ hr ⟨pushes df l ++ s.stack, l1, c1⟩ (topOf_after hl hs)
    refine ⟨l2, c2, ?_⟩
    rw [walk, h1]
    show (walk df r _ >>= fun s => _) = _
    rw [h2]
    show exitBin c _ = _
    have hcl := pushes_cons df l _ hl hl'
    have hcr := pushes_cons df r _ hr hr'
    rw [exitBin, pushes, nodeOf, hcr.1, lean_tail df r hlean, hcl.1]
    rfl
  | .to_ f lo hi, top, h, s, hs => by
    simp only [Sup, Bool.and_eq_true] at h
    refine ⟨s.last, s.count, ?_⟩
    rw [walk, exitMapped, mapNode, tokOk_conv h.1, tokOk_conv h.2]
    rfl
  | .in_ f ng items, top, h, s, hs => by
    rw [Sup] at h
    obtain ⟨l1, c1, h1⟩ := walk_args df items h s
    refine ⟨l1, c1, ?_⟩
    rw [walk, h1]
    show exitMapped df (.in_ f ng items) _ = _
    rw [exitMapped, mapNode, map_args df _ h]
    rw [pushes, nodeOf]
    rfl
  | .array f op items, top, h, s, hs => by
    rw [Sup] at h
    obtain ⟨l1, c1, h1⟩ := walk_args df items h s
    refine ⟨l1, c1, ?_⟩
    rw [walk, h1]
    show exitArray df f op items _ = _
    rw [exitArray, map_args df _ h]
    rfl

/-- The listener returns the node of a supported compound tree. -/
theorem listen_sup {df : Option JStr} {t : Tree} (h : Sup .empty t = true) (ht : t.isTypes = false) :
    listen df t = .ok (nodeOf df t) := by
  obtain ⟨l, c, h1⟩ := walk_sup df t .empty h LState.init rfl
  rw [listen, h1, (pushes_cons df t _ h ht).1]
  rfl

end BoolParser
