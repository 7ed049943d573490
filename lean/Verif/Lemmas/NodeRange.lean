import Verif.Lemmas.Ranges
import Verif.Lemmas.FuelEnough
/-!
# Nodes built from any text

Literals in range, and only functions that are written in the text.
-/

namespace BoolParser
open Spec

variable (Q : FuncType → Prop)

mutual
/-- Functions satisfy `Q`. -/
def FuncsOk : Tree → Prop
  | .paren t => FuncsOk t
  | .not_ t => FuncsOk t
  | .cmp _ l r => FuncsOk l ∧ FuncsOk r
  | .neg t => FuncsOk t
  | .arith _ l r => FuncsOk l ∧ FuncsOk r
  | .func f items => Q f ∧ FuncsOks items
  | .bin _ l r => FuncsOk l ∧ FuncsOk r
  | .types _ _ => True
  | .to_ _ _ _ => True
  | .in_ _ _ items => FuncsOks items
  | .array _ _ items => FuncsOks items
def FuncsOks : List Tree → Prop
  | [] => True
  | t :: ts => FuncsOk t ∧ FuncsOks ts
end

variable {Q}

/-- All nodes on the stack are fine. -/
def StackOk (Q : FuncType → Prop) (st : NStack) : Prop := ∀ n ∈ st, NodeOk Q n

theorem stackOk_nil : StackOk Q [] := by intro n h; cases h
theorem stackOk_cons {n : Node} {st : NStack} (hn : NodeOk Q n) (h : StackOk Q st) : StackOk Q (n :: st) := by
  intro m hm
  rcases List.mem_cons.mp hm with rfl | hm
  · exact hn
  · exact h m hm
theorem stackOk_top {n : Node} {st : NStack} (h : StackOk Q (n :: st)) : NodeOk Q n := h n (by simp)
theorem stackOk_tail {n : Node} {st : NStack} (h : StackOk Q (n :: st)) : StackOk Q st :=
  fun m hm => h m (by simp [hm])

/-- A node and the remaining stack are fine. -/
def PairOk (Q : FuncType → Prop) (p : Node × NStack) : Prop := NodeOk Q p.1 ∧ StackOk Q p.2
def PairsOk (Q : FuncType → Prop) (p : List Node × NStack) : Prop := NodesOk Q p.1 ∧ StackOk Q p.2

theorem mapTypes_ok (df : Option JStr) (t : Token) (e : Bool) : Yields (NodeOk Q) (mapTypes df t e) := by
  unfold mapTypes
  exact yields_ite (yields_ok trivial) (yields_ite (yields_ok trivial)
    (yields_bind (convertValue_range _ _) fun v hv => yields_ok hv))

theorem popN_ok {st : NStack} (h : StackOk Q st) : Yields (PairOk Q) (popN st) := by
  cases st with
  | nil => exact yields_err _
  | cons n st => exact yields_ok ⟨stackOk_top h, stackOk_tail h⟩

mutual
theorem mapNode_ok (df : Option JStr) : (t : Tree) → FuncsOk Q t → ∀ st, StackOk Q st →
    Yields (PairOk Q) (mapNode df t st)
  | .types t e, _, st, hs => by
    rw [mapNode]
    exact yields_bind (mapTypes_ok df t e) fun n hn => yields_ok ⟨hn, hs⟩
  | .func f items, h, st, hs => by
    rw [FuncsOk] at h
    rw [mapNode]
    exact yields_bind (mapNodes_ok df items h.2 st hs) fun p hp => yields_ok ⟨⟨h.1, hp.1⟩, hp.2⟩
  | .in_ f neg items, h, st, hs => by
    rw [FuncsOk] at h
    rw [mapNode]
    refine yields_bind (mapNodes_ok df items h st hs) fun p hp => yields_ok ⟨?_, hp.2⟩
    cases neg
    · exact hp.1
    · exact hp.1
  | .to_ f lo hi, _, st, hs => by
    rw [mapNode]
    exact yields_bind (convertValue_range _ _) fun a ha => yields_bind (convertValue_range _ _) fun b hb =>
      yields_ok ⟨⟨ha, hb⟩, hs⟩
  | .cmp op l r, h, st, hs => by
    rw [FuncsOk] at h
    rw [mapNode]
    refine yields_ite ?_ (yields_ite ?_ ?_)
    · exact yields_bind (mapNode_ok df l h.1 st hs) fun p hp => yields_bind (popN_ok hp.2) fun q hq =>
        yields_ok ⟨⟨hp.1, hq.1⟩, hq.2⟩
    · exact yields_bind (mapNode_ok df r h.2 st hs) fun p hp => yields_bind (popN_ok hp.2) fun q hq =>
        yields_ok ⟨⟨hq.1, hp.1⟩, hq.2⟩
    · exact yields_bind (mapNode_ok df r h.2 st hs) fun p hp => yields_bind (mapNode_ok df l h.1 _ hp.2) fun q hq =>
        yields_ok ⟨⟨hq.1, hp.1⟩, hq.2⟩
  | .arith op l r, h, st, hs => by
    rw [FuncsOk] at h
    rw [mapNode_arith]
    refine yields_ite ?_ (yields_ite ?_ (yields_ite ?_ ?_))
    · exact yields_bind (mapNode_ok df l h.1 st hs) fun p hp => yields_bind (mapNode_ok df r h.2 _ hp.2) fun q hq =>
        yields_ok ⟨⟨hp.1, hq.1⟩, hq.2⟩
    · exact yields_bind (mapNode_ok df l h.1 st hs) fun p hp => yields_bind (popN_ok hp.2) fun q hq =>
        yields_ok ⟨⟨hp.1, hq.1⟩, hq.2⟩
    · exact yields_bind (mapNode_ok df r h.2 st hs) fun p hp => yields_bind (popN_ok hp.2) fun q hq =>
        yields_ok ⟨⟨hq.1, hp.1⟩, hq.2⟩
    · match st, hs with
      | b :: a :: st, hs =>
        exact yields_ok ⟨⟨stackOk_top (stackOk_tail hs), stackOk_top hs⟩, stackOk_tail (stackOk_tail hs)⟩
      | [_], _ => exact yields_err _
      | [], _ => exact yields_err _
  | .paren _, _, _, _ => by simp only [mapNode]; exact yields_err _
  | .not_ _, _, _, _ => by simp only [mapNode]; exact yields_err _
  | .neg _, _, _, _ => by simp only [mapNode]; exact yields_err _
  | .bin _ _ _, _, _, _ => by simp only [mapNode]; exact yields_err _
  | .array _ _ _, _, _, _ => by simp only [mapNode]; exact yields_err _
theorem mapNodes_ok (df : Option JStr) : (ts : List Tree) → FuncsOks Q ts → ∀ st, StackOk Q st →
    Yields (PairsOk Q) (mapNodes df ts st)
  | [], _, st, hs => by rw [mapNodes]; exact yields_ok ⟨trivial, hs⟩
  | t :: ts, h, st, hs => by
    rw [FuncsOks] at h
    rw [mapNodes]
    exact yields_bind (mapNode_ok df t h.1 st hs) fun p hp => yields_bind (mapNodes_ok df ts h.2 _ hp.2) fun q hq =>
      yields_ok ⟨⟨hp.1, hq.1⟩, hq.2⟩
end

/-- The listener's stack is fine. -/
def StateOk (Q : FuncType → Prop) (s : LState) : Prop := StackOk Q s.stack

theorem exitMapped_ok (df : Option JStr) {t : Tree} (h : FuncsOk Q t) {s : LState} (hs : StateOk Q s) :
    Yields (StateOk Q) (exitMapped df t s) := by
  unfold exitMapped
  exact yields_bind (mapNode_ok df t h _ hs) fun p hp => yields_ok (stackOk_cons hp.1 hp.2)

theorem exitNeg_ok (df : Option JStr) (e : Tree) {s : LState} (hs : StateOk Q s) :
    Yields (StateOk Q) (exitNeg df e s) := by
  unfold exitNeg
  have leaf : Yields (StateOk Q) (match e with
    | .types t em => do
      let n ← mapTypes df t em
      pure { s with stack := .neg n :: s.stack }
    | _ => .error .classCast : Result LState) := by
    split
    · exact yields_bind (mapTypes_ok df _ _) fun n hn => yields_ok (stackOk_cons (n := .neg n) hn hs)
    · exact yields_err _
  simp only
  split
  · rename_i n st e'
    refine yields_ite (yields_ok ?_) leaf
    have hs' : StackOk Q (n :: st) := by rw [← e']; exact hs
    exact stackOk_cons (n := .neg n) (show NodeOk Q n from stackOk_top hs') (stackOk_tail hs')
  · exact leaf

theorem exitArray_ok (df : Option JStr) (f : Token) (op : ArrOp) {items : List Tree} (h : FuncsOks Q items)
    {s : LState} (hs : StateOk Q s) : Yields (StateOk Q) (exitArray df f op items s) := by
  unfold exitArray
  exact yields_bind (mapNodes_ok df items h _ hs) fun p hp =>
    yields_ok (stackOk_cons (n := .array f.text op p.1) hp.1 hp.2)

theorem exitNot_ok {s : LState} (hs : StateOk Q s) : Yields (StateOk Q) (exitNot s) := by
  unfold exitNot
  split
  · rename_i n st e
    have hs' : StackOk Q (n :: st) := by rw [← e]; exact hs
    exact yields_ok (stackOk_cons (n := .not_ n) (show NodeOk Q n from stackOk_top hs') (stackOk_tail hs'))
  · split
    · exact yields_err _
    · exact yields_bind (convertValue_range _ _) fun v hv =>
        yields_ok (stackOk_cons (n := .not_ (.unary _ v)) hv stackOk_nil)

theorem exitBin_ok (c : Bool) {s : LState} (hs : StateOk Q s) : Yields (StateOk Q) (exitBin c s) := by
  unfold exitBin
  split
  · rename_i b a st e
    have hs' : StackOk Q (b :: a :: st) := by rw [← e]; exact hs
    refine yields_ok (stackOk_cons ?_ (stackOk_tail (stackOk_tail hs')))
    cases c
    · exact ⟨stackOk_top (stackOk_tail hs'), stackOk_top hs'⟩
    · exact ⟨stackOk_top (stackOk_tail hs'), stackOk_top hs'⟩
  · exact yields_err _

mutual
theorem walk_ok (df : Option JStr) : (t : Tree) → FuncsOk Q t → ∀ s, StateOk Q s → Yields (StateOk Q) (walk df t s)
  | .paren t, h, s, hs => by rw [FuncsOk] at h; rw [walk]; exact walk_ok df t h s hs
  | .not_ t, h, s, hs => by
    rw [FuncsOk] at h; rw [walk]
    exact yields_bind (walk_ok df t h s hs) fun s' hs' => exitNot_ok hs'
  | .cmp op l r, h, s, hs => by
    have h' := h
    rw [FuncsOk] at h'; rw [walk]
    exact yields_bind (walk_ok df l h'.1 s hs) fun s1 h1 => yields_bind (walk_ok df r h'.2 s1 h1) fun s2 h2 =>
      exitMapped_ok df h h2
  | .neg t, h, s, hs => by
    rw [FuncsOk] at h; rw [walk]
    exact yields_bind (walk_ok df t h s hs) fun s' hs' => exitNeg_ok df t hs'
  | .arith op l r, h, s, hs => by
    have h' := h
    rw [FuncsOk] at h'; rw [walk]
    exact yields_bind (walk_ok df l h'.1 s hs) fun s1 h1 => yields_bind (walk_ok df r h'.2 s1 h1) fun s2 h2 =>
      exitMapped_ok df h h2
  | .func f items, h, s, hs => by
    have h' := h
    rw [FuncsOk] at h'; rw [walk]
    exact yields_bind (walkAll_ok df items h'.2 s hs) fun s1 h1 => exitMapped_ok df h h1
  | .bin c l r, h, s, hs => by
    rw [FuncsOk] at h; rw [walk]
    exact yields_bind (walk_ok df l h.1 s hs) fun s1 h1 => yields_bind (walk_ok df r h.2 s1 h1) fun s2 h2 =>
      exitBin_ok c h2
  | .types t e, _, s, hs => by rw [walk]; exact yields_ok hs
  | .to_ f lo hi, h, s, hs => by rw [walk]; exact exitMapped_ok df h hs
  | .in_ f neg items, h, s, hs => by
    have h' := h
    rw [FuncsOk] at h'; rw [walk]
    exact yields_bind (walkAll_ok df items h' s hs) fun s1 h1 => exitMapped_ok df h h1
  | .array f op items, h, s, hs => by
    rw [FuncsOk] at h; rw [walk]
    exact yields_bind (walkAll_ok df items h s hs) fun s1 h1 => exitArray_ok df f op h h1
theorem walkAll_ok (df : Option JStr) : (ts : List Tree) → FuncsOks Q ts → ∀ s, StateOk Q s →
    Yields (StateOk Q) (walkAll df ts s)
  | [], _, s, hs => by rw [walkAll]; exact yields_ok hs
  | t :: ts, h, s, hs => by
    rw [FuncsOks] at h; rw [walkAll]
    exact yields_bind (walk_ok df t h.1 s hs) fun s1 h1 => walkAll_ok df ts h.2 s1 h1
end

theorem listen_ok (df : Option JStr) {t : Tree} (h : FuncsOk Q t) : Yields (NodeOk Q) (listen df t) := by
  unfold listen
  refine yields_bind (walk_ok df t h _ stackOk_nil) fun s hs => ?_
  unfold exitParse
  split
  · rename_i n st e
    have hs' : StackOk Q (n :: st) := by rw [← e]; exact hs
    exact yields_ok (stackOk_top hs')
  · split
    · refine yields_ite (yields_ite (yields_ok trivial) (yields_bind (convertValue_range _ _) fun v hv => yields_ok hv))
        (yields_err _)
    · exact yields_err _

/-! ### Functions of a parse tree are written in the text -/

/-- Functions written in the tokens satisfy `Q`. -/
def TokensOk (Q : FuncType → Prop) (ts : List Token) : Prop := ∀ t ∈ ts, ∀ f, t.kind = .fn f → Q f

theorem tokensOk_tail {t : Token} {ts : List Token} (h : TokensOk Q (t :: ts)) : TokensOk Q ts :=
  fun u hu => h u (by simp [hu])

/-- Tree and rest are fine. -/
def ParsedOk (Q : FuncType → Prop) (x : Tree × List Token) : Prop := FuncsOk Q x.1 ∧ TokensOk Q x.2
def ParsedsOk (Q : FuncType → Prop) (x : List Tree × List Token) : Prop := FuncsOks Q x.1 ∧ TokensOk Q x.2

theorem binMk_ok {b : BinTok} {l r : Tree} (hl : FuncsOk Q l) (hr : FuncsOk Q r) : FuncsOk Q (b.mk l r) := by
  cases b <;> exact ⟨hl, hr⟩

theorem parse_ok (f : Nat) :
    (∀ p ts x, pExpr f p ts = some x → TokensOk Q ts → ParsedOk Q x) ∧
    (∀ ts x, pPrimary f ts = some x → TokensOk Q ts → ParsedOk Q x) ∧
    (∀ t ts x, pAfterField f t ts = some x → TokensOk Q ts → ParsedOk Q x) ∧
    (∀ p l ts x, pLoop f p l ts = some x → FuncsOk Q l → TokensOk Q ts → ParsedOk Q x) ∧
    (∀ ts x, pWordlist f ts = some x → TokensOk Q ts → ParsedsOk Q x) ∧
    (∀ ts x, pMore f ts = some x → TokensOk Q ts → ParsedsOk Q x) := by
  induction f with
  | zero =>
    exact ⟨fun _ _ _ h => (by cases h), fun _ _ h => (by cases h), fun _ _ _ h => (by cases h),
      fun _ _ _ _ h => (by cases h), fun _ _ h => (by cases h), fun _ _ h => (by cases h)⟩
  | succ f ih =>
    obtain ⟨hE, hP, hA, hL, hW, hM⟩ := ih
    refine ⟨?_, ?_, ?_, ?_, ?_, ?_⟩
    · intro p ts x h ht
      rw [pExpr] at h
      split at h
      · rename_i t ts' e
        have h1 := hP _ _ e ht
        exact hL _ _ _ _ h h1.1 h1.2
      · cases h
    · intro ts x h ht
      cases ts with
      | nil => rw [pPrimary] at h; injection h with h; subst h; exact ⟨trivial, ht⟩
      | cons t ts =>
        have ht' := tokensOk_tail ht
        rw [pPrimary_cons] at h
        split at h
        · split at h
          · rename_i e r ts' e1
            have h1 := hE _ _ _ e1 ht'
            split at h
            · injection h with h; subst h; exact ⟨h1.1, tokensOk_tail h1.2⟩
            · cases h
          · cases h
        · split at h
          · rename_i e1
            have h1 := hE _ _ _ e1 ht'
            injection h with h; subst h; exact ⟨h1.1, h1.2⟩
          · cases h
        · split at h
          · rename_i e1
            have h1 := hE _ _ _ e1 ht'
            injection h with h; subst h; exact ⟨h1.1, h1.2⟩
          · cases h
        · rename_i g hk
          split at h
          · rename_i e1
            have h1 := hW _ _ e1 ht'
            injection h with h; subst h; exact ⟨⟨ht t (by simp) g hk, h1.1⟩, h1.2⟩
          · cases h
        · split at h
          · split at h
            · split at h
              · injection h with h; subst h
                exact ⟨trivial, tokensOk_tail (tokensOk_tail (tokensOk_tail ht'))⟩
              · cases h
            · exact hA _ _ _ h ht'
          · split at h
            · cases h
            · exact hA _ _ _ h ht'
          · injection h with h; subst h; exact ⟨trivial, ht'⟩
        · split at h
          · injection h with h; subst h; exact ⟨trivial, ht'⟩
          · split at h
            · injection h with h; subst h; exact ⟨trivial, ht⟩
            · cases h
    · intro t ts x h ht
      cases ts with
      | nil => rw [pAfterField] at h; injection h with h; subst h; exact ⟨trivial, ht⟩
      | cons u us =>
        have ht' := tokensOk_tail ht
        rw [pAfterField_cons] at h
        split at h
        · split at h
          · rename_i e1
            have h1 := hW _ _ e1 ht'
            injection h with h; subst h; exact h1
          · cases h
        · split at h
          · split at h
            · split at h
              · rename_i e1
                have h1 := hW _ _ e1 (tokensOk_tail ht')
                injection h with h; subst h; exact h1
              · cases h
            · cases h
          · cases h
        · split at h
          · rename_i e1
            have h1 := hW _ _ e1 ht'
            injection h with h; subst h; exact h1
          · cases h
        · split at h
          · rename_i e1
            have h1 := hW _ _ e1 ht'
            injection h with h; subst h; exact h1
          · cases h
        · injection h with h; subst h; exact ⟨trivial, ht⟩
    · intro p l ts x h hl ht
      cases ts with
      | nil => rw [pLoop] at h; injection h with h; subst h; exact ⟨hl, ht⟩
      | cons t ts =>
        have ht' := tokensOk_tail ht
        rw [pLoop] at h
        split at h
        · split at h
          · split at h
            · rename_i e1
              have h1 := hE _ _ _ e1 ht'
              exact hL _ _ _ _ h (binMk_ok hl h1.1) h1.2
            · cases h
          · injection h with h; subst h; exact ⟨hl, ht⟩
        · injection h with h; subst h; exact ⟨hl, ht⟩
    · intro ts x h ht
      cases ts with
      | nil => rw [pWordlist] at h; cases h
      | cons t ts =>
        have ht' := tokensOk_tail ht
        rw [pWordlist] at h
        split at h
        · split at h
          · rename_i e1
            have h1 := hE _ _ _ e1 ht'
            split at h
            · rename_i e2
              have h2 := hM _ _ e2 h1.2
              injection h with h; subst h; exact ⟨⟨h1.1, h2.1⟩, h2.2⟩
            · cases h
          · cases h
        · cases h
    · intro ts x h ht
      cases ts with
      | nil => rw [pMore] at h; cases h
      | cons t ts =>
        have ht' := tokensOk_tail ht
        rw [pMore] at h
        split at h
        · injection h with h; subst h; exact ⟨trivial, ht'⟩
        · split at h
          · split at h
            · rename_i e1
              have h1 := hE _ _ _ e1 ht'
              split at h
              · rename_i e2
                have h2 := hM _ _ e2 h1.2
                injection h with h; subst h; exact ⟨⟨h1.1, h2.1⟩, h2.2⟩
              · cases h
            · cases h
          · cases h

theorem parseTokens_ok {ts : List Token} {t : Tree} (h : parseTokens ts = some t) (ht : TokensOk Q ts) : FuncsOk Q t := by
  obtain ⟨f, hf⟩ := parseTokens_iff.mp h
  exact ((parse_ok f).1 _ _ _ hf ht).1

theorem parseExpression_ok {s : JStr} {df : Option JStr} {n : Node} (h : parseExpression s df = .success n)
    (ht : TokensOk Q (lex s)) : NodeOk Q n := by
  unfold parseExpression at h
  split at h
  · rename_i t e
    have h1 := parseTokens_ok (Q := Q) e ht
    cases hl : listen df t with
    | ok m =>
      rw [hl] at h
      injection h with h
      rw [← h]; exact listen_ok df h1 m hl
    | error x => rw [hl] at h; cases h
  · cases h

/-! ### Evaluation -/

theorem lenOk_of {vs : List Value} (h : CountFits vs) : LenOk (flattenItems vs) := by
  rw [flattenItems_elements]
  refine ⟨by simpa using h.1, ?_⟩
  intro s t e
  apply h.2 s
  cases hv : vs.flatMap elements with
  | nil => rw [hv] at e; simp at e
  | cons a as =>
    rw [hv] at e
    cases as with
    | nil => simp at e; rw [e.1]
    | cons b bs => simp at e

mutual
theorem evalArith_range {env : Env} {d : Data} (ht : DateInRange env.today) (hd : EntriesInRange d) : (n : Node) →
    NodeOk Q n → LensFit env d n → Yields InRange (evalArith env d n)
  | .arith op l r, h, hl => by
    rw [evalArith]
    exact yields_bind (evalArith_range ht hd l h.1 fun vs hv => hl vs (.left hv)) fun a ha =>
      yields_bind' fun b => arithBinary_range _ _ _ _ ha
  | .neg l, h, hl => by
    rw [evalArith]
    exact yields_bind' fun a => arithNegate_range _ _
  | .func f items, h, hl => by
    rw [evalArith]
    have ih := evalArithAll_range ht hd items h.2 fun m hm vs hv => hl vs (.arg hm hv)
    intro v hv
    cases e : evalArithAll env d items with
    | error x => rw [e] at hv; cases hv
    | ok vs =>
      rw [e] at hv
      exact callFn_range ht f (flattenItems_range (ih vs e)) (by
        rintro rfl
        exact lenOk_of (hl vs (.here e))) v hv
  | .unary _ v, h, _ => by rw [evalArith]; exact yields_ok h
  | .field f, _, _ => by rw [evalArith]; exact requireField_range f hd
  | .cmp _ _ _ _, _, _ | .range _ _ _ _ _, _, _ | .inn _ _, _, _ | .array _ _ _, _, _ | .and_ _ _, _, _
  | .or_ _ _, _, _ | .not_ _, _, _ => by simp only [evalArith]; exact yields_err _
theorem evalArithAll_range {env : Env} {d : Data} (ht : DateInRange env.today) (hd : EntriesInRange d) :
    (ns : List Node) → NodesOk Q ns → (∀ n ∈ ns, LensFit env d n) →
    Yields (fun vs => ∀ v ∈ vs, InRange v) (evalArithAll env d ns)
  | [], _, _ => by rw [evalArithAll]; exact yields_ok (by intro v hv; cases hv)
  | n :: ns, h, hl => by
    rw [evalArithAll]
    refine yields_bind (evalArith_range ht hd n h.1 (hl n (by simp))) fun v hv =>
      yields_bind (evalArithAll_range ht hd ns h.2 fun m hm => hl m (by simp [hm])) fun vs hvs => yields_ok ?_
    intro w hw
    rcases List.mem_cons.mp hw with rfl | hw
    · exact hv
    · exact hvs w hw
end

theorem mem_nodesOk {ns : List Node} (h : NodesOk Q ns) : ∀ n ∈ ns, NodeOk Q n := by
  induction ns with
  | nil => intro n hn; cases hn
  | cons m ns ih =>
    intro n hn
    rcases List.mem_cons.mp hn with rfl | hn
    · exact h.1
    · exact ih h.2 n hn

/-- Without LEN there is nothing to count. -/
theorem noLen_fits {env : Env} {d : Data} {n : Node} (h : NodeOk (fun f => f ≠ .len) n) : LensFit env d n := by
  intro vs hv
  induction hv with
  | here _ => exact absurd rfl h.1
  | arg hm _ ih => exact ih (mem_nodesOk h.2 _ hm)
  | left _ ih => exact ih h.1
  | right _ ih => exact ih h.2
  | neg _ ih => exact ih h

end BoolParser
