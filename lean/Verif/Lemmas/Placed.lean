import Verif.Lemmas.Yield
import Verif.Lemmas.NodeRange
/-!
# Where a literal or a field can stand in a node

The stack of the listener never holds a bare literal or a bare field: they occur as operands, as items, and below
NOT if the text has a NOT.
-/

namespace BoolParser

/-- A node the listener may push: no bare literal or field at a place where a yes or no is expected, except below NOT
if `b`. Nothing is required of the operands of arithmetic. -/
inductive Placed (b : Prop) : Node → Prop
  | cmp {op dt l r} : (l.isArithBase = false → Placed b l) → (r.isArithBase = false → Placed b r) → Placed b (.cmp l r op dt)
  | range {f lo hi s t} : Placed b (.range f lo hi s t)
  | inn {f items} : (∀ n ∈ items, n.isArithBase = false → Placed b n) → Placed b (.inn f items)
  | array {f op items} : (∀ n ∈ items, n.isArithBase = false → Placed b n) → Placed b (.array f op items)
  | and_ {l r} : Placed b l → Placed b r → Placed b (.and_ l r)
  | or_ {l r} : Placed b l → Placed b r → Placed b (.or_ l r)
  | not_ {l} : Placed b l → Placed b (.not_ l)
  | word {dt v} : b → Placed b (.not_ (.unary dt v))
  | arith {op l r} : Placed b (.arith op l r)
  | neg {l} : Placed b (.neg l)
  | func {f items} : Placed b (.func f items)

variable {b : Prop}

/-- A node as an operand or as an item. -/
def PSlot (b : Prop) (n : Node) : Prop := n.isArithBase = false → Placed b n

def AllPlaced (b : Prop) (st : NStack) : Prop := ∀ n ∈ st, Placed b n

theorem allPlaced_cons {n : Node} {st : NStack} (hn : Placed b n) (h : AllPlaced b st) : AllPlaced b (n :: st) := by
  intro m hm
  rcases List.mem_cons.1 hm with rfl | hm
  · exact hn
  · exact h m hm

theorem allPlaced_top {n : Node} {st : NStack} (h : AllPlaced b (n :: st)) : Placed b n := h n (by simp)
theorem allPlaced_tail {n : Node} {st : NStack} (h : AllPlaced b (n :: st)) : AllPlaced b st :=
  fun m hm => h m (List.mem_cons_of_mem _ hm)

def IsTypes (t : Tree) : Prop := t.isTypes = true

/-- The node of a context, and what is left of the stack. -/
def PairPlaced (b : Prop) (t : Tree) (p : Node × NStack) : Prop :=
  (Placed b p.1 ∨ (p.1.isArithBase = true ∧ t.isTypes = true)) ∧ AllPlaced b p.2
def PairsPlaced (b : Prop) (p : List Node × NStack) : Prop := (∀ n ∈ p.1, PSlot b n) ∧ AllPlaced b p.2

theorem PairPlaced.slot {t : Tree} {p : Node × NStack} (h : PairPlaced b t p) : PSlot b p.1 := by
  intro h0
  rcases h.1 with h | h
  · exact h
  · rw [h.1] at h0; cases h0

theorem mapTypes_placed (df : Option JStr) (t : Token) (e : Bool) : Yields (fun n => n.isArithBase = true) (mapTypes df t e) := by
  unfold mapTypes
  refine yields_ite (yields_ok rfl) (yields_ite (yields_ok rfl) ?_)
  exact yields_bind (P := fun _ => True) (fun _ _ => trivial) fun v _ => yields_ok rfl

theorem popN_placed {st : NStack} (h : AllPlaced b st) : Yields (fun p => Placed b p.1 ∧ AllPlaced b p.2) (popN st) := by
  cases st with
  | nil => exact yields_err _
  | cons n st => exact yields_ok ⟨allPlaced_top h, allPlaced_tail h⟩

theorem yields_any {α : Type} (r : Result α) : Yields (fun _ => True) r := fun _ _ => trivial

mutual
theorem mapNode_placed (df : Option JStr) : (t : Tree) → ∀ st, AllPlaced b st → Yields (PairPlaced b t) (mapNode df t st)
  | .types t e, st, hs => by
    rw [mapNode]
    exact yields_bind (mapTypes_placed df t e) fun n hn => yields_ok ⟨.inr ⟨hn, rfl⟩, hs⟩
  | .func f items, st, hs => by
    rw [mapNode]
    exact yields_bind (mapNodes_placed df items st hs) fun p hp => yields_ok ⟨.inl .func, hp.2⟩
  | .in_ f neg items, st, hs => by
    rw [mapNode]
    refine yields_bind (mapNodes_placed df items st hs) fun p hp => yields_ok ⟨.inl ?_, hp.2⟩
    cases neg
    · exact .inn hp.1
    · exact .not_ (.inn hp.1)
  | .to_ f lo hi, st, hs => by
    rw [mapNode]
    exact yields_bind (yields_any _) fun a ha => yields_bind (yields_any _) fun b hb => yields_ok ⟨.inl .range, hs⟩
  | .cmp op l r, st, hs => by
    rw [mapNode]
    refine yields_ite ?_ (yields_ite ?_ ?_)
    · exact yields_bind (mapNode_placed df l st hs) fun p hp => yields_bind (popN_placed hp.2) fun q hq =>
        yields_ok ⟨.inl (.cmp hp.slot (fun _ => hq.1)), hq.2⟩
    · exact yields_bind (mapNode_placed df r st hs) fun p hp => yields_bind (popN_placed hp.2) fun q hq =>
        yields_ok ⟨.inl (.cmp (fun _ => hq.1) hp.slot), hq.2⟩
    · exact yields_bind (mapNode_placed df r st hs) fun p hp => yields_bind (mapNode_placed df l _ hp.2) fun q hq =>
        yields_ok ⟨.inl (.cmp hq.slot hp.slot), hq.2⟩
  | .arith op l r, st, hs => by
    rw [mapNode_arith]
    refine yields_ite ?_ (yields_ite ?_ (yields_ite ?_ ?_))
    · exact yields_bind (mapNode_placed df l st hs) fun p hp => yields_bind (mapNode_placed df r _ hp.2) fun q hq =>
        yields_ok ⟨.inl .arith, hq.2⟩
    · exact yields_bind (mapNode_placed df l st hs) fun p hp => yields_bind (popN_placed hp.2) fun q hq =>
        yields_ok ⟨.inl .arith, hq.2⟩
    · exact yields_bind (mapNode_placed df r st hs) fun p hp => yields_bind (popN_placed hp.2) fun q hq =>
        yields_ok ⟨.inl .arith, hq.2⟩
    · match st, hs with
      | b :: a :: st, hs => exact yields_ok ⟨.inl .arith, allPlaced_tail (allPlaced_tail hs)⟩
      | [_], _ => exact yields_err _
      | [], _ => exact yields_err _
  | .paren _, _, _ => by simp only [mapNode]; exact yields_err _
  | .not_ _, _, _ => by simp only [mapNode]; exact yields_err _
  | .neg _, _, _ => by simp only [mapNode]; exact yields_err _
  | .bin _ _ _, _, _ => by simp only [mapNode]; exact yields_err _
  | .array _ _ _, _, _ => by simp only [mapNode]; exact yields_err _
theorem mapNodes_placed (df : Option JStr) : (ts : List Tree) → ∀ st, AllPlaced b st →
    Yields (PairsPlaced b) (mapNodes df ts st)
  | [], st, hs => by rw [mapNodes]; exact yields_ok ⟨by simp, hs⟩
  | t :: ts, st, hs => by
    rw [mapNodes]
    refine yields_bind (mapNode_placed df t st hs) fun p hp => yields_bind (mapNodes_placed df ts _ hp.2) fun q hq =>
      yields_ok ⟨?_, hq.2⟩
    intro n hn
    rcases List.mem_cons.1 hn with rfl | hn
    · exact hp.slot
    · exact hq.1 n hn
end

theorem exitMapped_placed (df : Option JStr) {t : Tree} (ht : t.isTypes = false) {s : LState} (hs : AllPlaced b s.stack) :
    Yields (fun s => AllPlaced b s.stack ∧ s.stack ≠ []) (exitMapped df t s) := by
  unfold exitMapped
  refine yields_bind (mapNode_placed df t _ hs) fun p hp => yields_ok ⟨allPlaced_cons ?_ hp.2, by simp⟩
  rcases hp.1 with h | ⟨_, h⟩
  · exact h
  · rw [ht] at h; cases h

theorem exitNeg_placed (df : Option JStr) (e : Tree) {s : LState} (hs : AllPlaced b s.stack) :
    Yields (fun s => AllPlaced b s.stack ∧ s.stack ≠ []) (exitNeg df e s) := by
  unfold exitNeg
  have leaf : Yields (fun s => AllPlaced b s.stack ∧ s.stack ≠ []) (match e with
    | .types t em => do
      let n ← mapTypes df t em
      pure { s with stack := .neg n :: s.stack }
    | _ => .error .classCast : Result LState) := by
    split
    · exact yields_bind (yields_any _) fun n hn => yields_ok ⟨allPlaced_cons .neg hs, by simp⟩
    · exact yields_err _
  simp only
  split
  · rename_i n st e'
    refine yields_ite (yields_ok ?_) leaf
    have hs' : AllPlaced b (n :: st) := by rw [← e']; exact hs
    exact ⟨allPlaced_cons .neg (allPlaced_tail hs'), by simp⟩
  · exact leaf

theorem exitArray_placed (df : Option JStr) (f : Token) (op : ArrOp) {items : List Tree}
    {s : LState} (hs : AllPlaced b s.stack) :
    Yields (fun s => AllPlaced b s.stack ∧ s.stack ≠ []) (exitArray df f op items s) := by
  unfold exitArray
  exact yields_bind (mapNodes_placed df items _ hs) fun p hp => yields_ok ⟨allPlaced_cons (.array hp.1) hp.2, by simp⟩

theorem exitNot_placed (hb : b) {s : LState} (hs : AllPlaced b s.stack) :
    Yields (fun s => AllPlaced b s.stack ∧ s.stack ≠ []) (exitNot s) := by
  unfold exitNot
  split
  · rename_i n st e
    have hs' : AllPlaced b (n :: st) := by rw [← e]; exact hs
    exact yields_ok ⟨allPlaced_cons (.not_ (allPlaced_top hs')) (allPlaced_tail hs'), by simp⟩
  · split
    · exact yields_err _
    · exact yields_bind (yields_any _) fun v hv =>
        yields_ok ⟨allPlaced_cons (.word hb) (by intro n h; cases h), by simp⟩

theorem exitBin_placed (c : Bool) {s : LState} (hs : AllPlaced b s.stack) :
    Yields (fun s => AllPlaced b s.stack ∧ s.stack ≠ []) (exitBin c s) := by
  unfold exitBin
  split
  · rename_i x a st e
    have hs' : AllPlaced b (x :: a :: st) := by rw [← e]; exact hs
    refine yields_ok ⟨allPlaced_cons ?_ (allPlaced_tail (allPlaced_tail hs')), by simp⟩
    cases c
    · exact .or_ (allPlaced_top (allPlaced_tail hs')) (allPlaced_top hs')
    · exact .and_ (allPlaced_top (allPlaced_tail hs')) (allPlaced_top hs')
  · exact yields_err _

/-- An operand in any number of parentheses. -/
inductive Lone : Tree → Prop
  | types (t e) : Lone (.types t e)
  | paren {t} : Lone t → Lone (.paren t)

/-- The stack is fine, and empty only if nothing but a lone operand was walked. -/
def After' (b : Prop) (t : Tree) (s : LState) (s' : LState) : Prop :=
  AllPlaced b s'.stack ∧ (s'.stack = [] → Lone t ∧ s.stack = [])

theorem after_of {t : Tree} {s s' : LState} (h : AllPlaced b s'.stack ∧ s'.stack ≠ []) : After' b t s s' :=
  ⟨h.1, fun e => absurd e h.2⟩

theorem yields_imp {α : Type} {P Q : α → Prop} {r : Result α} (h : Yields P r) (hi : ∀ a, P a → Q a) : Yields Q r :=
  fun a ha => hi a (h a ha)

theorem mem_list_close {k : TK} : (ks : List (List TK)) → (∃ e ∈ ks, k ∈ e) → k ∈ closeKinds ks
  | [], h => by obtain ⟨e, he, _⟩ := h; cases he
  | x :: xs, h => by
    obtain ⟨e, he, hk⟩ := h
    rw [closeKinds]
    rcases List.mem_cons.1 he with rfl | he
    · simp [hk]
    · simp [mem_list_close xs ⟨e, he, hk⟩]

theorem mem_listKinds {k : TK} {ks : List (List TK)} (h : ∃ e ∈ ks, k ∈ e) : k ∈ listKinds ks := by
  cases ks with
  | nil => obtain ⟨e, he, _⟩ := h; cases he
  | cons x xs =>
    obtain ⟨e, he, hk⟩ := h
    rw [listKinds]
    rcases List.mem_cons.1 he with rfl | he
    · simp [hk]
    · simp [mem_list_close xs ⟨e, he, hk⟩]

mutual
theorem walk_placed (df : Option JStr) : (t : Tree) → (TK.kNot ∈ t.kinds → b) → ∀ s, AllPlaced b s.stack →
    Yields (After' b t s) (walk df t s)
  | .paren t, h, s, hs => by
    rw [walk]
    refine yields_imp (walk_placed df t (fun hk => h (by simp [Tree.kinds, hk])) s hs) fun s' h' => ⟨h'.1, fun e => ?_⟩
    exact ⟨.paren (h'.2 e).1, (h'.2 e).2⟩
  | .not_ t, h, s, hs => by
    rw [walk]
    exact yields_bind (walk_placed df t (fun hk => h (by simp [Tree.kinds])) s hs) fun s' hs' =>
      yields_imp (exitNot_placed (h (by simp [Tree.kinds])) hs'.1) fun _ => after_of
  | .cmp op l r, h, s, hs => by
    rw [walk]
    exact yields_bind (walk_placed df l (fun hk => h (by simp [Tree.kinds, hk])) s hs) fun s1 h1 =>
      yields_bind (walk_placed df r (fun hk => h (by simp [Tree.kinds, hk])) s1 h1.1) fun s2 h2 =>
      yields_imp (exitMapped_placed df rfl h2.1) fun _ => after_of
  | .neg t, h, s, hs => by
    rw [walk]
    exact yields_bind (walk_placed df t (fun hk => h (by simp [Tree.kinds, hk])) s hs) fun s' hs' =>
      yields_imp (exitNeg_placed df t hs'.1) fun _ => after_of
  | .arith op l r, h, s, hs => by
    rw [walk]
    exact yields_bind (walk_placed df l (fun hk => h (by simp [Tree.kinds, hk])) s hs) fun s1 h1 =>
      yields_bind (walk_placed df r (fun hk => h (by simp [Tree.kinds, hk])) s1 h1.1) fun s2 h2 =>
      yields_imp (exitMapped_placed df rfl h2.1) fun _ => after_of
  | .func f items, h, s, hs => by
    rw [walk]
    exact yields_bind (walkAll_placed df items (fun hk => h (by simp [Tree.kinds, mem_listKinds hk])) s hs) fun s1 h1 =>
      yields_imp (exitMapped_placed df rfl h1) fun _ => after_of
  | .bin c l r, h, s, hs => by
    rw [walk]
    exact yields_bind (walk_placed df l (fun hk => h (by simp [Tree.kinds, hk])) s hs) fun s1 h1 =>
      yields_bind (walk_placed df r (fun hk => h (by simp [Tree.kinds, hk])) s1 h1.1) fun s2 h2 =>
      yields_imp (exitBin_placed c h2.1) fun _ => after_of
  | .types t e, _, s, hs => by rw [walk]; exact yields_ok ⟨hs, fun e => ⟨.types _ _, e⟩⟩
  | .to_ f lo hi, h, s, hs => by rw [walk]; exact yields_imp (exitMapped_placed df rfl hs) fun _ => after_of
  | .in_ f neg items, h, s, hs => by
    rw [walk]
    exact yields_bind (walkAll_placed df items (fun hk => h (by simp [Tree.kinds, mem_listKinds hk])) s hs) fun s1 h1 =>
      yields_imp (exitMapped_placed df rfl h1) fun _ => after_of
  | .array f op items, h, s, hs => by
    rw [walk]
    exact yields_bind (walkAll_placed df items (fun hk => h (by simp [Tree.kinds, mem_listKinds hk])) s hs) fun s1 h1 =>
      yields_imp (exitArray_placed df f op h1) fun _ => after_of
theorem walkAll_placed (df : Option JStr) : (ts : List Tree) → ((∃ e ∈ kindsAll ts, TK.kNot ∈ e) → b) → ∀ s,
    AllPlaced b s.stack → Yields (fun s => AllPlaced b s.stack) (walkAll df ts s)
  | [], _, s, hs => by rw [walkAll]; exact yields_ok hs
  | t :: ts, h, s, hs => by
    rw [walkAll]
    exact yields_bind (walk_placed df t (fun hk => h ⟨t.kinds, by simp [kindsAll], hk⟩) s hs) fun s1 h1 =>
      walkAll_placed df ts (fun ⟨e, he, hk⟩ => h ⟨e, by simp [kindsAll, he], hk⟩) s1 h1.1
end

/-- The node of a whole expression. -/
def TopPlaced (b : Prop) (t : Tree) (n : Node) : Prop :=
  Placed b n ∨ (Lone t ∧ ((∃ v, n = .unary .string v) ∨ ∃ f, n = .field (some f)))

theorem listen_placed (df : Option JStr) {t : Tree} (h : TK.kNot ∈ t.kinds → b) : Yields (TopPlaced b t) (listen df t) := by
  unfold listen
  refine yields_bind (walk_placed df t h _ (by intro n h; cases h)) fun s hs => ?_
  unfold exitParse
  split
  · rename_i n st e
    exact yields_ok (.inl (hs.1 n (by rw [e]; simp)))
  · rename_i e
    have hl := (hs.2 e).1
    split
    · refine yields_ite (yields_ite (yields_ok (.inr ⟨hl, .inr ⟨_, rfl⟩⟩))
        (yields_bind (yields_any _) fun v hv => yields_ok (.inr ⟨hl, .inl ⟨_, rfl⟩⟩))) (yields_err _)
    · exact yields_err _

theorem lone_kinds {t : Tree} (h : Lone t) : ∃ n ks, ks.length ≤ 1 ∧
    t.kinds = List.replicate n .lparen ++ ks ++ List.replicate n .rparen := by
  induction h with
  | types t e =>
    refine ⟨0, (Tree.types t e).kinds, ?_, by simp⟩
    rw [Tree.kinds]; split <;> simp
  | paren _ ih =>
    obtain ⟨n, ks, hl, ih⟩ := ih
    refine ⟨n + 1, ks, hl, ?_⟩
    rw [Tree.kinds, ih, List.replicate_succ, List.replicate_succ']
    simp

theorem parseExpression_placed {s : JStr} {df : Option JStr} {n : Node} (h : parseExpression s df = .success n) :
    Placed (TK.kNot ∈ kindsOf (lex s)) n ∨
    ((∃ m ks, ks.length ≤ 1 ∧ kindsOf (lex s) = List.replicate m .lparen ++ ks ++ List.replicate m .rparen) ∧
      ((∃ v, n = .unary .string v) ∨ ∃ f, n = .field (some f))) := by
  unfold parseExpression at h
  split at h
  · rename_i t e
    have hk := parseTokens_kinds e
    cases hl : listen df t with
    | ok m =>
      rw [hl] at h
      injection h with h
      subst h
      rcases listen_placed (b := TK.kNot ∈ kindsOf (lex s)) df (by rw [hk]; exact id) m hl with h | ⟨h, h'⟩
      · exact .inl h
      · refine .inr ⟨?_, h'⟩
        rw [← hk]
        exact lone_kinds h
    | error e => rw [hl] at h; cases h
  · cases h

end BoolParser
