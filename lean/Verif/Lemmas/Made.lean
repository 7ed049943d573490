import Verif.Lemmas.Placed
import Verif.Lemmas.Unclosed
/-!
# What a node is made of

Every operator, function, name and literal in a node comes from a token of the text; a name is left out only where the
text leaves out an operand.
-/

namespace BoolParser

/-- The kinds of tokens, the names, the literals and the bounds of ranges that may be used, and whether an operand may
be missing. -/
structure Stock where
  kind : TK → Prop
  field : JStr → Prop
  lit : DataType → Value → Prop
  bound : DataType → Value → Prop
  gap : Prop

variable (S : Stock)

mutual
def Made : Node → Prop
  | .cmp l r op _ => S.kind (.cmp op) ∧ Made l ∧ Made r
  | .range f lo hi a b => S.kind .kTo ∧ S.field f ∧ S.bound a lo ∧ S.bound b hi
  | .inn f items => S.kind .kIn ∧ S.field f ∧ Mades items
  | .array f op items => S.kind op.kind ∧ S.field f ∧ Mades items
  | .unary t v => S.lit t v
  | .and_ l r => S.kind .kAnd ∧ Made l ∧ Made r
  | .or_ l r => S.kind .kOr ∧ Made l ∧ Made r
  | .not_ l => S.kind .kNot ∧ Made l
  | .field none => S.gap
  | .field (some f) => S.field f
  | .arith op l r => S.kind (.arith op) ∧ Made l ∧ Made r
  | .neg l => S.kind (.arith .sub) ∧ Made l
  | .func f items => S.kind (.fn f) ∧ items ≠ [] ∧ Mades items
def Mades : List Node → Prop
  | [] => True
  | n :: ns => Made n ∧ Mades ns
end

/-- A token whose name or value may be used. -/
def TokMade (t : Token) : Prop :=
  (t.kind = .field → S.field t.text) ∧
  (∀ v, convertValue t.text (tokType t) = .ok v → S.lit (tokType t) v) ∧
  (∀ v, convertValue t.text .string = .ok v → S.lit .string v) ∧
  (∀ v, convertValue t.text (tokType t) = .ok v → S.bound (tokType t) v)

mutual
/-- The tree uses only tokens that may be used; `E`: operands may be missing. -/
def Over (E : Prop) : Tree → Prop
  | .paren t => Over E t
  | .not_ t => S.kind .kNot ∧ Over E t
  | .cmp op l r => S.kind (.cmp op) ∧ Over E l ∧ Over E r
  | .neg t => S.kind (.arith .sub) ∧ Over E t
  | .arith op l r => S.kind (.arith op) ∧ Over E l ∧ Over E r
  | .func f items => S.kind (.fn f) ∧ items ≠ [] ∧ Overs E items
  | .bin c l r => S.kind (connKind c) ∧ Over E l ∧ Over E r
  | .types t e => TokMade S t ∧ (e = true → E)
  | .to_ f lo hi => S.kind .kTo ∧ S.field f.text ∧ TokMade S lo ∧ TokMade S hi
  | .in_ f neg items => S.kind .kIn ∧ S.field f.text ∧ (neg = true → S.kind .kNot) ∧ Overs E items
  | .array f op items => S.kind op.kind ∧ S.field f.text ∧ Overs E items
def Overs (E : Prop) : List Tree → Prop
  | [] => True
  | t :: ts => Over E t ∧ Overs E ts
end

variable {S}

/-- What a missing operand stands for. -/
def Omit (S : Stock) (df : Option JStr) : Prop := (df = none → S.gap) ∧ ∀ f, df = some f → S.field f

theorem omit_field {df : Option JStr} (h : Omit S df) : Made S (.field df) := by
  cases df with
  | none => exact h.1 rfl
  | some f => exact h.2 f rfl

def StackMade (S : Stock) (st : NStack) : Prop := ∀ n ∈ st, Made S n

theorem stackMade_cons {n : Node} {st : NStack} (hn : Made S n) (h : StackMade S st) : StackMade S (n :: st) := by
  intro m hm
  rcases List.mem_cons.mp hm with rfl | hm
  · exact hn
  · exact h m hm
theorem stackMade_top {n : Node} {st : NStack} (h : StackMade S (n :: st)) : Made S n := h n (by simp)
theorem stackMade_tail {n : Node} {st : NStack} (h : StackMade S (n :: st)) : StackMade S st :=
  fun m hm => h m (by simp [hm])

def PairMade (S : Stock) (p : Node × NStack) : Prop := Made S p.1 ∧ StackMade S p.2
def PairsMade (S : Stock) (k : Nat) (p : List Node × NStack) : Prop := Mades S p.1 ∧ p.1.length = k ∧ StackMade S p.2

variable {E : Prop} {df : Option JStr}

theorem mapTypes_made (hE : E → Omit S df) {t : Token} {e : Bool} (h : TokMade S t) (he : e = true → E) :
    Yields (Made S) (mapTypes df t e) := by
  unfold mapTypes
  cases e with
  | true => exact yields_ite (yields_ok (omit_field (hE (he rfl)))) (yields_ok (omit_field (hE (he rfl))))
  | false =>
    split
    · rename_i hk; exact yields_ok (h.1 hk)
    · exact yields_bind (h.2.1) fun v hv => yields_ok hv

theorem popN_made {st : NStack} (h : StackMade S st) : Yields (PairMade S) (popN st) := by
  cases st with
  | nil => exact yields_err _
  | cons n st => exact yields_ok ⟨stackMade_top h, stackMade_tail h⟩

mutual
theorem mapNode_made (hE : E → Omit S df) : (t : Tree) → Over S E t → ∀ st, StackMade S st →
    Yields (PairMade S) (mapNode df t st)
  | .types t e, h, st, hs => by
    rw [Over] at h
    rw [mapNode]
    exact yields_bind (mapTypes_made hE h.1 h.2) fun n hn => yields_ok ⟨hn, hs⟩
  | .func f items, h, st, hs => by
    rw [Over] at h
    rw [mapNode]
    refine yields_bind (mapNodes_made hE items h.2.2 st hs) fun p hp => yields_ok ⟨⟨h.1, ?_, hp.1⟩, hp.2.2⟩
    intro h0
    have := hp.2.1
    rw [h0] at this
    exact h.2.1 (List.length_eq_zero_iff.1 this.symm)
  | .in_ f neg items, h, st, hs => by
    rw [Over] at h
    rw [mapNode]
    refine yields_bind (mapNodes_made hE items h.2.2.2 st hs) fun p hp => yields_ok ⟨?_, hp.2.2⟩
    cases neg
    · exact ⟨h.1, h.2.1, hp.1⟩
    · exact ⟨h.2.2.1 rfl, h.1, h.2.1, hp.1⟩
  | .to_ f lo hi, h, st, hs => by
    rw [Over] at h
    rw [mapNode]
    exact yields_bind h.2.2.1.2.2.2 fun a ha => yields_bind h.2.2.2.2.2.2 fun b hb => yields_ok ⟨⟨h.1, h.2.1, ha, hb⟩, hs⟩
  | .cmp op l r, h, st, hs => by
    rw [Over] at h
    rw [mapNode]
    refine yields_ite ?_ (yields_ite ?_ ?_)
    · exact yields_bind (mapNode_made hE l h.2.1 st hs) fun p hp => yields_bind (popN_made hp.2) fun q hq =>
        yields_ok ⟨⟨h.1, hp.1, hq.1⟩, hq.2⟩
    · exact yields_bind (mapNode_made hE r h.2.2 st hs) fun p hp => yields_bind (popN_made hp.2) fun q hq =>
        yields_ok ⟨⟨h.1, hq.1, hp.1⟩, hq.2⟩
    · exact yields_bind (mapNode_made hE r h.2.2 st hs) fun p hp => yields_bind (mapNode_made hE l h.2.1 _ hp.2) fun q hq =>
        yields_ok ⟨⟨h.1, hq.1, hp.1⟩, hq.2⟩
  | .arith op l r, h, st, hs => by
    rw [Over] at h
    rw [mapNode_arith]
    refine yields_ite ?_ (yields_ite ?_ (yields_ite ?_ ?_))
    · exact yields_bind (mapNode_made hE l h.2.1 st hs) fun p hp => yields_bind (mapNode_made hE r h.2.2 _ hp.2) fun q hq =>
        yields_ok ⟨⟨h.1, hp.1, hq.1⟩, hq.2⟩
    · exact yields_bind (mapNode_made hE l h.2.1 st hs) fun p hp => yields_bind (popN_made hp.2) fun q hq =>
        yields_ok ⟨⟨h.1, hp.1, hq.1⟩, hq.2⟩
    · exact yields_bind (mapNode_made hE r h.2.2 st hs) fun p hp => yields_bind (popN_made hp.2) fun q hq =>
        yields_ok ⟨⟨h.1, hq.1, hp.1⟩, hq.2⟩
    · match st, hs with
      | b :: a :: st, hs =>
        exact yields_ok ⟨⟨h.1, stackMade_top (stackMade_tail hs), stackMade_top hs⟩, stackMade_tail (stackMade_tail hs)⟩
      | [_], _ => exact yields_err _
      | [], _ => exact yields_err _
  | .paren _, _, _, _ => by simp only [mapNode]; exact yields_err _
  | .not_ _, _, _, _ => by simp only [mapNode]; exact yields_err _
  | .neg _, _, _, _ => by simp only [mapNode]; exact yields_err _
  | .bin _ _ _, _, _, _ => by simp only [mapNode]; exact yields_err _
  | .array _ _ _, _, _, _ => by simp only [mapNode]; exact yields_err _
theorem mapNodes_made (hE : E → Omit S df) : (ts : List Tree) → Overs S E ts → ∀ st, StackMade S st →
    Yields (PairsMade S ts.length) (mapNodes df ts st)
  | [], _, st, hs => by rw [mapNodes]; exact yields_ok ⟨trivial, rfl, hs⟩
  | t :: ts, h, st, hs => by
    rw [Overs] at h
    rw [mapNodes]
    exact yields_bind (mapNode_made hE t h.1 st hs) fun p hp => yields_bind (mapNodes_made hE ts h.2 _ hp.2) fun q hq =>
      yields_ok ⟨⟨hp.1, hq.1⟩, by simp [hq.2.1], hq.2.2⟩
end

def StateMade (S : Stock) (s : LState) : Prop := StackMade S s.stack ∧ ∀ t, s.last = some t → TokMade S t

theorem exitMapped_made (hE : E → Omit S df) {t : Tree} (h : Over S E t) {s : LState} (hs : StateMade S s) :
    Yields (StateMade S) (exitMapped df t s) := by
  unfold exitMapped
  exact yields_bind (mapNode_made hE t h _ hs.1) fun p hp => yields_ok ⟨stackMade_cons hp.1 hp.2, hs.2⟩

theorem exitNeg_made (hE : E → Omit S df) {e : Tree} (h' : Over S E e) (hk : S.kind (.arith .sub)) {s : LState} (hs : StateMade S s) :
    Yields (StateMade S) (exitNeg df e s) := by
  unfold exitNeg
  have h : ∀ t em, e = .types t em → TokMade S t ∧ (em = true → E) := by rintro t em rfl; exact h'
  clear h'
  have leaf : Yields (StateMade S) (match (generalizing := false) e with
    | .types t em => do
      let n ← mapTypes df t em
      pure { s with stack := .neg n :: s.stack }
    | _ => .error .classCast : Result LState) := by
    split
    · rename_i t em
      exact yields_bind (mapTypes_made hE (h _ _ rfl).1 (h _ _ rfl).2) fun n hn => yields_ok ⟨stackMade_cons (n := .neg n) ⟨hk, hn⟩ hs.1, hs.2⟩
    · exact yields_err _
  simp only
  split
  · rename_i n st e'
    refine yields_ite (yields_ok ?_) leaf
    have hs' : StackMade S (n :: st) := by rw [← e']; exact hs.1
    exact ⟨stackMade_cons (n := .neg n) ⟨hk, stackMade_top hs'⟩ (stackMade_tail hs'), hs.2⟩
  · exact leaf

theorem exitArray_made (hE : E → Omit S df) {f : Token} {op : ArrOp} {items : List Tree} (h : Overs S E items)
    (hk : S.kind op.kind) (hf : S.field f.text)
    {s : LState} (hs : StateMade S s) : Yields (StateMade S) (exitArray df f op items s) := by
  unfold exitArray
  exact yields_bind (mapNodes_made hE items h _ hs.1) fun p hp =>
    yields_ok ⟨stackMade_cons (n := .array f.text op p.1) ⟨hk, hf, hp.1⟩ hp.2.2, hs.2⟩

theorem exitNot_made (hk : S.kind .kNot) {s : LState} (hs : StateMade S s) : Yields (StateMade S) (exitNot s) := by
  unfold exitNot
  split
  · rename_i n st e
    have hs' : StackMade S (n :: st) := by rw [← e]; exact hs.1
    exact yields_ok ⟨stackMade_cons (n := .not_ n) ⟨hk, stackMade_top hs'⟩ (stackMade_tail hs'), hs.2⟩
  · split
    · exact yields_err _
    · rename_i t e
      exact yields_bind ((hs.2 t e).2.1) fun v hv =>
        yields_ok ⟨stackMade_cons (n := .not_ (.unary _ v)) ⟨hk, hv⟩ (by intro n h; cases h), hs.2⟩

theorem exitBin_made {c : Bool} (hk : S.kind (connKind c)) {s : LState} (hs : StateMade S s) : Yields (StateMade S) (exitBin c s) := by
  unfold exitBin
  split
  · rename_i b a st e
    have hs' : StackMade S (b :: a :: st) := by rw [← e]; exact hs.1
    refine yields_ok ⟨stackMade_cons ?_ (stackMade_tail (stackMade_tail hs')), hs.2⟩
    cases c
    · exact ⟨hk, stackMade_top (stackMade_tail hs'), stackMade_top hs'⟩
    · exact ⟨hk, stackMade_top (stackMade_tail hs'), stackMade_top hs'⟩
  · exact yields_err _

mutual
theorem walk_made (hE : E → Omit S df) : (t : Tree) → Over S E t → ∀ s, StateMade S s → Yields (StateMade S) (walk df t s)
  | .paren t, h, s, hs => by rw [Over] at h; rw [walk]; exact walk_made hE t h s hs
  | .not_ t, h, s, hs => by
    rw [Over] at h; rw [walk]
    exact yields_bind (walk_made hE t h.2 s hs) fun s' hs' => exitNot_made h.1 hs'
  | .cmp op l r, h, s, hs => by
    have h' := h
    rw [Over] at h'; rw [walk]
    exact yields_bind (walk_made hE l h'.2.1 s hs) fun s1 h1 => yields_bind (walk_made hE r h'.2.2 s1 h1) fun s2 h2 =>
      exitMapped_made hE h h2
  | .neg t, h, s, hs => by
    rw [Over] at h; rw [walk]
    exact yields_bind (walk_made hE t h.2 s hs) fun s' hs' => exitNeg_made hE h.2 h.1 hs'
  | .arith op l r, h, s, hs => by
    have h' := h
    rw [Over] at h'; rw [walk]
    exact yields_bind (walk_made hE l h'.2.1 s hs) fun s1 h1 => yields_bind (walk_made hE r h'.2.2 s1 h1) fun s2 h2 =>
      exitMapped_made hE h h2
  | .func f items, h, s, hs => by
    have h' := h
    rw [Over] at h'; rw [walk]
    exact yields_bind (walkAll_made hE items h'.2.2 s hs) fun s1 h1 => exitMapped_made hE h h1
  | .bin c l r, h, s, hs => by
    rw [Over] at h; rw [walk]
    exact yields_bind (walk_made hE l h.2.1 s hs) fun s1 h1 => yields_bind (walk_made hE r h.2.2 s1 h1) fun s2 h2 =>
      exitBin_made h.1 h2
  | .types t e, h, s, hs => by
    rw [Over] at h
    rw [walk]
    refine yields_ok ⟨hs.1, fun t' h' => ?_⟩
    cases h'
    exact h.1
  | .to_ f lo hi, h, s, hs => by rw [walk]; exact exitMapped_made hE h hs
  | .in_ f neg items, h, s, hs => by
    have h' := h
    rw [Over] at h'; rw [walk]
    exact yields_bind (walkAll_made hE items h'.2.2.2 s hs) fun s1 h1 => exitMapped_made hE h h1
  | .array f op items, h, s, hs => by
    rw [Over] at h; rw [walk]
    exact yields_bind (walkAll_made hE items h.2.2 s hs) fun s1 h1 => exitArray_made hE h.2.2 h.1 h.2.1 h1
theorem walkAll_made (hE : E → Omit S df) : (ts : List Tree) → Overs S E ts → ∀ s, StateMade S s →
    Yields (StateMade S) (walkAll df ts s)
  | [], _, s, hs => by rw [walkAll]; exact yields_ok hs
  | t :: ts, h, s, hs => by
    rw [Overs] at h; rw [walkAll]
    exact yields_bind (walk_made hE t h.1 s hs) fun s1 h1 => walkAll_made hE ts h.2 s1 h1
end

theorem listen_made (hE : E → Omit S df) {t : Tree} (h : Over S E t) : Yields (Made S) (listen df t) := by
  unfold listen
  refine yields_bind (walk_made hE t h LState.init ⟨by (intro n h; cases h), by (intro t h; cases h)⟩) fun s hs => ?_
  unfold exitParse
  split
  · rename_i n st e
    have hs' : StackMade S (n :: st) := by rw [← e]; exact hs.1
    exact yields_ok (stackMade_top hs')
  · split
    · rename_i t e
      refine yields_ite ?_ (yields_err _)
      split
      · rename_i hk; exact yields_ok ((hs.2 t e).1 hk)
      · exact yields_bind ((hs.2 t e).2.2.1) fun v hv => yields_ok hv
    · exact yields_err _

/-! ### Missing operands are seen in the text -/

/-- A token after which an operand is expected. -/
def TK.opens : TK → Bool
  | .lparen | .comma | .kNot | .kAnd | .kOr => true
  | .arith _ => true
  | .cmp _ => true
  | _ => false

/-- An operand is missing: where one is expected the text ends, or an operator other than minus, a comma or a closing
parenthesis follows. The first argument is the preceding token. -/
def gapIn : TK → List TK → Bool
  | p, [] => p.opens
  | p, k :: ks => (p.opens && isEmptyFollow k) || gapIn k ks

/-- Tokens that may be used, and no missing operand unless `E`. -/
def Stocked (S : Stock) (E : Prop) (p : TK) (ts : List Token) : Prop :=
  (∀ t ∈ ts, TokMade S t ∧ S.kind t.kind) ∧ (E ∨ gapIn p (kindsOf ts) = false)

theorem good_tail {p : TK} {t : Token} {ts : List Token} (h : Stocked S E p (t :: ts)) : Stocked S E t.kind ts := by
  refine ⟨fun u hu => h.1 u (by simp [hu]), ?_⟩
  rcases h.2 with h | h
  · exact .inl h
  · simp only [kindsOf, List.map_cons, gapIn, Bool.or_eq_false_iff] at h
    exact .inr h.2

theorem good_gap {p : TK} {t : Token} {ts : List Token} (h : Stocked S E p (t :: ts)) (hp : p.opens = true)
    (ht : isEmptyFollow t.kind = true) : E := by
  rcases h.2 with h | h
  · exact h
  · simp [kindsOf, gapIn, hp, ht] at h

theorem good_end {p : TK} (h : Stocked S E p []) (hp : p.opens = true) : E := by
  rcases h.2 with h | h
  · exact h
  · simp [gapIn, hp] at h

/-- The rest of the tokens, after some token. -/
def GoodRest (S : Stock) (E : Prop) (ts : List Token) : Prop := ∃ p, Stocked S E p ts

theorem goodRest_tail {t : Token} {ts : List Token} (h : GoodRest S E (t :: ts)) : Stocked S E t.kind ts := by
  obtain ⟨p, h⟩ := h; exact good_tail h

theorem bin_opens {k : TK} {b : BinTok} (h : binTok k = some b) : k.opens = true := by
  cases k <;> first | rfl | cases h

theorem over_mk {k : TK} {b : BinTok} (h : binTok k = some b) (hk : S.kind k) {l r : Tree} (hl : Over S E l) (hr : Over S E r) :
    Over S E (b.mk l r) := by
  cases k <;> first | (cases h; done) | (cases h; exact ⟨hk, hl, hr⟩)

theorem made_parse (heof : TokMade S eofTok) (f : Nat) :
    (∀ p ts x q, pExpr f p ts = some x → q.opens = true → Stocked S E q ts → Over S E x.1 ∧ GoodRest S E x.2) ∧
    (∀ ts x q, pPrimary f ts = some x → q.opens = true → Stocked S E q ts → Over S E x.1 ∧ GoodRest S E x.2) ∧
    (∀ t ts x, pAfterField f t ts = some x → t.kind = .field → TokMade S t → Stocked S E t.kind ts → Over S E x.1 ∧ GoodRest S E x.2) ∧
    (∀ p l ts x, pLoop f p l ts = some x → Over S E l → GoodRest S E ts → Over S E x.1 ∧ GoodRest S E x.2) ∧
    (∀ ts x, pWordlist f ts = some x → GoodRest S E ts → Overs S E x.1 ∧ x.1 ≠ [] ∧ GoodRest S E x.2) ∧
    (∀ ts x, pMore f ts = some x → GoodRest S E ts → Overs S E x.1 ∧ GoodRest S E x.2) := by
  induction f with
  | zero => refine ⟨?_, ?_, ?_, ?_, ?_, ?_⟩ <;> intros <;> simp_all [pExpr, pPrimary, pAfterField, pLoop, pWordlist, pMore]
  | succ f ih =>
    obtain ⟨hE, hP, hA, hL, hW, hM⟩ := ih
    refine ⟨?_, ?_, ?_, ?_, ?_, ?_⟩
    · intro p ts x q h hq hs
      rw [pExpr] at h
      cases e : pPrimary f ts with
      | none => rw [e] at h; cases h
      | some y =>
        rw [e] at h
        have := hP _ _ _ e hq hs
        exact hL _ _ _ _ h this.1 this.2
    · intro ts x q h hq hs
      cases ts with
      | nil => cases h; exact ⟨⟨heof, fun _ => good_end hs hq⟩, q, hs⟩
      | cons t ts =>
        have hs' := good_tail hs
        have ht := hs.1 t (by simp)
        by_cases hf : t.kind = .field
        · rw [pPrimary_field _ _ _ hf] at h
          match ts, h with
          | [], h => cases h; exact ⟨⟨ht.1, by simp⟩, _, hs'⟩
          | [lo], h =>
            simp only [fieldTail] at h
            split at h
            · cases h
            · exact hA t _ _ h hf ht.1 hs'
          | [lo, to_], h =>
            simp only [fieldTail] at h
            split at h
            · cases h
            · exact hA t _ _ h hf ht.1 hs'
          | lo :: to_ :: hi :: ts', h =>
            simp only [fieldTail] at h
            split at h
            · split at h
              · rename_i hto
                cases h
                exact ⟨⟨hto.1 ▸ (hs'.1 to_ (by simp)).2, ht.1.1 hf, (hs'.1 lo (by simp)).1, (hs'.1 hi (by simp)).1⟩, _, good_tail (good_tail (good_tail hs'))⟩
              · cases h
            · exact hA t _ _ h hf ht.1 hs'
        · rw [pPrimary_cons] at h
          cases hk : t.kind with
          | lparen =>
            rw [hk] at h hs'
            simp only at h
            cases e : pExpr f 0 ts with
            | none => rw [e] at h; cases h
            | some y =>
              obtain ⟨t', r⟩ := y
              rw [e] at h
              cases r with
              | nil => cases h
              | cons r ts' =>
                simp only at h
                split at h
                · cases h
                  have := hE _ _ _ _ e rfl hs'
                  exact ⟨this.1, _, goodRest_tail this.2⟩
                · cases h
          | kNot =>
            rw [hk] at h hs' ht
            simp only at h
            cases e : pExpr f 15 ts with
            | none => rw [e] at h; cases h
            | some y =>
              rw [e] at h; cases h
              have := hE _ _ y _ e rfl hs'
              exact ⟨⟨ht.2, this.1⟩, this.2⟩
          | arith op =>
            rw [hk] at h hs' ht
            cases op with
            | sub =>
              simp only at h
              cases e : pExpr f 13 ts with
              | none => rw [e] at h; cases h
              | some y =>
                rw [e] at h; cases h
                have := hE _ _ y _ e rfl hs'
                exact ⟨⟨ht.2, this.1⟩, this.2⟩
            | _ => cases h; exact ⟨⟨ht.1, fun _ => good_gap hs hq (by rw [hk]; rfl)⟩, _, hs⟩
          | fn g =>
            rw [hk] at h hs' ht
            simp only at h
            cases e : pWordlist f ts with
            | none => rw [e] at h; cases h
            | some y =>
              rw [e] at h; cases h
              have := hW _ _ e ⟨_, hs'⟩
              exact ⟨⟨ht.2, this.2.1, this.1⟩, this.2.2⟩
          | field => exact absurd hk hf
          | _ =>
            rw [hk] at h
            cases h <;> first
              | exact ⟨⟨ht.1, fun _ => good_gap hs hq (by rw [hk]; rfl)⟩, _, hs⟩
              | exact ⟨⟨ht.1, by simp⟩, _, hs'⟩
    · intro t ts x h hf ht hs
      cases ts with
      | nil => cases h; exact ⟨⟨ht, by simp⟩, _, hs⟩
      | cons u us =>
        rw [pAfterField_cons] at h
        have hs' := good_tail hs
        have hu := hs.1 u (by simp)
        cases hk : u.kind with
        | kIn =>
          rw [hk] at h
          simp only at h
          cases e : pWordlist f us with
          | none => rw [e] at h; cases h
          | some y =>
            rw [e] at h; cases h
            have := hW _ _ e ⟨_, hs'⟩
            exact ⟨⟨hk ▸ hu.2, ht.1 hf, by simp, this.1⟩, this.2.2⟩
        | cAll =>
          rw [hk] at h hu
          simp only at h
          cases e : pWordlist f us with
          | none => rw [e] at h; cases h
          | some y =>
            rw [e] at h; cases h
            have := hW _ _ e ⟨_, hs'⟩
            exact ⟨⟨hu.2, ht.1 hf, this.1⟩, this.2.2⟩
        | cAny =>
          rw [hk] at h hu
          simp only at h
          cases e : pWordlist f us with
          | none => rw [e] at h; cases h
          | some y =>
            rw [e] at h; cases h
            have := hW _ _ e ⟨_, hs'⟩
            exact ⟨⟨hu.2, ht.1 hf, this.1⟩, this.2.2⟩
        | kNot =>
          rw [hk] at h hu
          cases us with
          | nil => cases h
          | cons v vs =>
            simp only at h
            split at h
            · rename_i hv
              cases e : pWordlist f vs with
              | none => rw [e] at h; cases h
              | some y =>
                rw [e] at h; cases h
                have := hW _ _ e ⟨_, good_tail hs'⟩
                exact ⟨⟨hv ▸ (hs.1 v (by simp)).2, ht.1 hf, fun _ => hu.2, this.1⟩, this.2.2⟩
            · cases h
        | _ => rw [hk] at h; cases h; exact ⟨⟨ht, by simp⟩, _, hs⟩
    · intro p l ts x h hl hs
      cases ts with
      | nil => rw [pLoop] at h; cases h; exact ⟨hl, hs⟩
      | cons t ts =>
        rw [pLoop] at h
        cases hb : binTok t.kind with
        | none => rw [hb] at h; cases h; exact ⟨hl, hs⟩
        | some b =>
          rw [hb] at h
          simp only at h
          split at h
          · cases e : pExpr f (b.prec + 1) ts with
            | none => rw [e] at h; cases h
            | some y =>
              rw [e] at h
              have := hE _ _ _ _ e (bin_opens hb) (goodRest_tail hs)
              obtain ⟨q, hq⟩ := hs
              exact hL _ _ _ _ h (over_mk hb (hq.1 t (by simp)).2 hl this.1) this.2
          · cases h; exact ⟨hl, hs⟩
    · intro ts x h hs
      cases ts with
      | nil => cases h
      | cons t ts =>
        rw [pWordlist] at h
        split at h
        · rename_i hk
          cases e : pExpr f 0 ts with
          | none => rw [e] at h; cases h
          | some y =>
            rw [e] at h
            simp only at h
            cases e2 : pMore f y.2 with
            | none => rw [e2] at h; cases h
            | some z =>
              rw [e2] at h; cases h
              have h1 := hE _ _ _ _ e (by rw [hk]; rfl) (goodRest_tail hs)
              have h2 := hM _ z e2 h1.2
              exact ⟨⟨h1.1, h2.1⟩, by simp, h2.2⟩
        · cases h
    · intro ts x h hs
      cases ts with
      | nil => cases h
      | cons t ts =>
        rw [pMore] at h
        split at h
        · cases h; exact ⟨trivial, _, goodRest_tail hs⟩
        · split at h
          · rename_i hk
            cases e : pExpr f 0 ts with
            | none => rw [e] at h; cases h
            | some y =>
              rw [e] at h
              simp only at h
              cases e2 : pMore f y.2 with
              | none => rw [e2] at h; cases h
              | some z =>
                rw [e2] at h; cases h
                have h1 := hE _ _ _ _ e (by rw [hk]; rfl) (goodRest_tail hs)
                have h2 := hM _ z e2 h1.2
                exact ⟨⟨h1.1, h2.1⟩, h2.2⟩
          · cases h

/-- The node of a text is made of its tokens. -/
theorem parseExpression_made {s : JStr} (heof : TokMade S eofTok)
    (ht : ∀ t ∈ lex s, TokMade S t ∧ S.kind t.kind)
    (hg : gapIn .lparen (kindsOf (lex s)) = true → Omit S df) {n : Node} (h : parseExpression s df = .success n) : Made S n := by
  unfold parseExpression at h
  split at h
  · rename_i t e
    have e' : ∃ x, pExpr (parseFuel (lex s)) 0 (lex s) = some x ∧ x.1 = t := by
      unfold parseTokens at e
      split at e
      · rename_i t' e'; injection e with e; exact ⟨_, e', e⟩
      · cases e
    obtain ⟨x, hx, rfl⟩ := e'
    have := ((made_parse (E := gapIn .lparen (kindsOf (lex s)) = true) heof _).1 _ _ _ .lparen hx rfl
      ⟨ht, by cases gapIn .lparen (kindsOf (lex s)) <;> simp⟩).1
    cases hl : listen df x.1 with
    | ok m =>
      rw [hl] at h
      injection h with h
      subst h
      exact listen_made hg this _ hl
    | error e => rw [hl] at h; cases h
  · cases h

end BoolParser
