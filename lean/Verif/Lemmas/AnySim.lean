import Verif.Lemmas.RecoveryRel
import Verif.Lemmas.Texts
/-!
# Any two texts with related tokens evaluate alike
-/

namespace BoolParser

/-- Upper bounds of the same type with related values. -/
def UpperRel (V : Vocab) (x x' : Token × JStr) : Prop :=
  tokType x.1 = tokType x'.1 ∧ RRel V.bound (convertValue x.2 (tokType x.1)) (convertValue x'.2 (tokType x.1))

/-- As `Sim`; any token may be what an omitted operand starts with. -/
structure SimAny (R : Token → Token → Prop) (V : Vocab) (df df' : Option JStr) : Prop extends Sim R V df df' where
  anyLone : ∀ {t t'}, R t t' → startsTypes t.kind = true → t.kind ≠ .field →
    RRel V.lone (convertValue t.text .string) (convertValue t'.text .string)
  anyWord : ∀ {t t'}, R t t' →
    RRel (V.word (tokType t)) (convertValue t.text (tokType t)) (convertValue t'.text (tokType t))
  eof : R eofTok eofTok
  same : ∀ v, V.bound v v

variable {R : Token → Token → Prop} {V : Vocab} {df df' : Option JStr}

theorem SimAny.alike (S : SimAny R V df df') : AlikeToks R (UpperRel V) where
  kind h := S.kind h
  eof := S.eof
  num h hk := ⟨S.type h, (S.lit h (num_lit hk)).mono fun _ _ h => S.bound h⟩
  same t x := ⟨rfl, RRel.refl_ok fun v _ => S.same v⟩

theorem rtree_isTypes {t t' : RTree} {B : Token × JStr → Token × JStr → Prop} (h : RTreeRel R B t t') : t.isTypes = t'.isTypes := by
  cases h <;> rfl
theorem rtree_isParen {t t' : RTree} {B : Token × JStr → Token × JStr → Prop} (h : RTreeRel R B t t') : t.isParen = t'.isParen := by
  cases h <;> rfl

theorem rtree_startType (S : SimAny R V df df') : {t t' : RTree} → RTreeRel R (UpperRel V) t t' → t.startType = t'.startType
  | _, _, .types _ h _ _ => by rw [RTree.startType, RTree.startType]; exact S.type h
  | _, _, .cmp hl _ => by rw [RTree.startType, RTree.startType]; exact rtree_startType S hl
  | _, _, .arith _ _ hl _ => by rw [RTree.startType, RTree.startType]; exact rtree_startType S hl
  | _, _, .bin hl _ => by rw [RTree.startType, RTree.startType]; exact rtree_startType S hl
  | _, _, .paren _ => rfl
  | _, _, .not_ _ => rfl
  | _, _, .neg _ => rfl
  | _, _, .func _ _ _ _ => rfl
  | _, _, .to_ _ _ _ _ _ => rfl
  | _, _, .in_ _ _ _ _ _ => rfl
  | _, _, .array _ _ _ _ _ => rfl
  | _, _, .bad => rfl

theorem useStackR_rel {st st' : NStack} (h : NodesRel V st st') {l l' r r' : RTree} {B : Token × JStr → Token × JStr → Prop}
    (hl : RTreeRel R B l l') (hr : RTreeRel R B r r') : useStackR st l r = useStackR st' l' r' := by
  cases h with
  | nil => rfl
  | cons h _ => simp only [useStackR]; rw [rtree_isParen hl, rtree_isParen hr, node_isCmpOrBool h]

theorem shape_bind {α β : Type} {Q : α → β → Prop} {x : Result α} {y : Result β} (u : Result Unit) (h : RRel Q x y) :
    RRel Q (u >>= fun _ => x) (u >>= fun _ => y) := by
  cases u with
  | error e => exact .error e
  | ok _ => exact h

theorem mapNodeR_arith (df : Option JStr) (op : ArithOp) (l r : RTree) (st : NStack) :
    mapNodeR df (.arith op l r) st =
    if l.isTypes && r.isTypes then (do
      let (a, st) ← mapNodeR df l st
      let (b, st) ← mapNodeR df r st
      pure (.arith op a b, st))
    else if l.isTypes then (do
      let (a, st) ← mapNodeR df l st
      let (b, st) ← popN st
      pure (.arith op a b, st))
    else if r.isTypes then (do
      let (b, st) ← mapNodeR df r st
      let (a, st) ← popN st
      pure (.arith op a b, st))
    else
      (match st with
      | b :: a :: st => .ok (.arith op a b, st)
      | _ => .error .invalidExpression) := by
  rfl

mutual
theorem mapNodeR_rel (S : SimAny R V df df') : {t t' : RTree} → RTreeRel R (UpperRel V) t t' → {st st' : NStack} →
    NodesRel V st st' → RRel (SRel V) (mapNodeR df t st) (mapNodeR df' t' st')
  | _, _, .types e h he _, st, st', hs => by
    rw [mapNodeR, mapNodeR]
    exact (mapTypes_rel S.toSim h e he).bind (fun _ _ h => .ok ⟨h, hs⟩)
  | _, _, .func sh h hk hes, st, st', hs => by
    rw [mapNodeR, mapNodeR]
    exact shape_bind _ ((mapNodesR_rel S hes hs).bind (fun _ _ h' => .ok ⟨.func (S.fn h hk) h'.1, h'.2⟩))
  | _, _, .in_ n sh h hk hes, st, st', hs => by
    rw [mapNodeR, mapNodeR]
    refine shape_bind _ ((mapNodesR_rel S hes hs).bind (fun _ _ h' => .ok ⟨?_, h'.2⟩))
    cases n with
    | true => exact .not_ (.inn (S.field h hk) h'.1)
    | false => exact .inn (S.field h hk) h'.1
  | _, _, .to_ h1 k1 h2 k2 h3, st, st', hs => by
    rw [mapNodeR, mapNodeR, ← S.type h2]
    refine (S.lit h2 (num_lit k2)).bind (fun _ _ q => ?_)
    cases h3 with
    | none => exact .error _
    | @some x x' h3 =>
      obtain ⟨u, x⟩ := x
      obtain ⟨u', x'⟩ := x'
      obtain ⟨e, h3⟩ := h3
      simp only at e h3 ⊢
      rw [← e]
      exact h3.bind fun _ _ q' => .ok ⟨.range (S.field h1 k1) (S.bound q) q', hs⟩
  | .cmp op l r, .cmp _ l' r', .cmp hl hr, st, st', hs => by
    rw [mapNodeR, mapNodeR, ← useStackR_rel hs hl hr, ← rtree_isTypes hl, ← rtree_isTypes hr]
    rw [← rtree_startType S hl, ← rtree_startType S hr]
    by_cases c1 : (useStackR st l r && l.isTypes) = true
    · rw [if_pos c1, if_pos c1]
      exact (mapNodeR_rel S hl hs).bind (fun _ _ h => (popN_rel h.2).bind (fun _ _ h' => .ok ⟨.cmp _ _ h.1 h'.1, h'.2⟩))
    · rw [if_neg c1, if_neg c1]
      by_cases c2 : (useStackR st l r && r.isTypes) = true
      · rw [if_pos c2, if_pos c2]
        exact (mapNodeR_rel S hr hs).bind (fun _ _ h => (popN_rel h.2).bind (fun _ _ h' => .ok ⟨.cmp _ _ h'.1 h.1, h'.2⟩))
      · rw [if_neg c2, if_neg c2]
        exact (mapNodeR_rel S hr hs).bind (fun _ _ h => (mapNodeR_rel S hl h.2).bind
          (fun _ _ h' => .ok ⟨.cmp _ _ h'.1 h.1, h'.2⟩))
  | .arith op l r, .arith _ l' r', .arith h hk hl hr, st, st', hs => by
    rw [mapNodeR_arith, mapNodeR_arith, ← rtree_isTypes hl, ← rtree_isTypes hr]
    have ho := S.op h hk
    by_cases c1 : (l.isTypes && r.isTypes) = true
    · rw [if_pos c1, if_pos c1]
      exact (mapNodeR_rel S hl hs).bind (fun _ _ h => (mapNodeR_rel S hr h.2).bind
          (fun _ _ h' => .ok ⟨.arith ho h.1 h'.1, h'.2⟩))
    · rw [if_neg c1, if_neg c1]
      by_cases c2 : l.isTypes = true
      · rw [if_pos c2, if_pos c2]
        exact (mapNodeR_rel S hl hs).bind (fun _ _ h => (popN_rel h.2).bind (fun _ _ h' => .ok ⟨.arith ho h.1 h'.1, h'.2⟩))
      · rw [if_neg c2, if_neg c2]
        by_cases c3 : r.isTypes = true
        · rw [if_pos c3, if_pos c3]
          exact (mapNodeR_rel S hr hs).bind (fun _ _ h => (popN_rel h.2).bind (fun _ _ h' => .ok ⟨.arith ho h'.1 h.1, h'.2⟩))
        · rw [if_neg c3, if_neg c3]
          cases hs with
          | nil => exact .error _
          | cons q1 q2 =>
            cases q2 with
            | nil => exact .error _
            | cons q2 q3 => exact .ok ⟨.arith ho q2 q1, q3⟩
  | _, _, .paren _, _, _, _ => by simp only [mapNodeR]; exact .error _
  | _, _, .not_ _, _, _, _ => by simp only [mapNodeR]; exact .error _
  | _, _, .neg _, _, _, _ => by simp only [mapNodeR]; exact .error _
  | _, _, .bin _ _, _, _, _ => by simp only [mapNodeR]; exact .error _
  | _, _, .array _ _ _ _ _, _, _, _ => by simp only [mapNodeR]; exact .error _
  | _, _, .bad, _, _, _ => by simp only [mapNodeR]; exact .error _
theorem mapNodesR_rel (S : SimAny R V df df') : {ts ts' : List RTree} → RTreesRel R (UpperRel V) ts ts' →
    {st st' : NStack} → NodesRel V st st' →
    RRel (fun x x' => NodesRel V x.1 x'.1 ∧ NodesRel V x.2 x'.2) (mapNodesR df ts st) (mapNodesR df' ts' st')
  | _, _, .nil, st, st', hs => by rw [mapNodesR, mapNodesR]; exact .ok ⟨.nil, hs⟩
  | _, _, .cons h1 h2, st, st', hs => by
    rw [mapNodesR, mapNodesR]
    exact (mapNodeR_rel S h1 hs).bind (fun _ _ h => (mapNodesR_rel S h2 h.2).bind
      (fun _ _ h' => .ok ⟨.cons h.1 h'.1, h'.2⟩))
end

/-- Related listener states. -/
structure LStRel (R : Token → Token → Prop) (V : Vocab) (s s' : LState) : Prop where
  stack : NodesRel V s.stack s'.stack
  last : ORel (fun t t' => R t t' ∧ startsTypes t.kind = true) s.last s'.last
  count : s.count = s'.count

theorem exitMappedR_rel (S : SimAny R V df df') {t t' : RTree} (h : RTreeRel R (UpperRel V) t t') {s s' : LState}
    (hs : LStRel R V s s') : RRel (LStRel R V) (exitMappedR df t s) (exitMappedR df' t' s') :=
  (mapNodeR_rel S h hs.stack).bind (fun _ _ h => .ok ⟨.cons h.1 h.2, hs.last, hs.count⟩)

theorem exitNegR_rel (S : SimAny R V df df') {t t' : RTree} (h : RTreeRel R (UpperRel V) t t') {s s' : LState}
    (hs : LStRel R V s s') : RRel (LStRel R V) (exitNegR df t s) (exitNegR df' t' s') := by
  unfold exitNegR
  obtain ⟨st, la, c⟩ := s
  obtain ⟨st', la', c'⟩ := s'
  obtain ⟨h1, h2, h3⟩ := hs
  simp only at h1 h2 h3 ⊢
  cases h1 with
  | nil =>
    cases h <;> first
      | exact .error _
      | exact (mapTypes_rel S.toSim (by assumption) _ (by assumption)).bind (fun _ _ h => .ok ⟨.cons (.neg h) .nil, h2, h3⟩)
  | @cons n n' st st' h1 h4 =>
    simp only [← node_isArithNode h1]
    cases n.isArithNode
    · cases h <;> first
        | exact .error _
        | exact (mapTypes_rel S.toSim (by assumption) _ (by assumption)).bind (fun _ _ h => .ok ⟨.cons (.neg h) (.cons h1 h4), h2, h3⟩)
    · exact .ok ⟨.cons (.neg h1) h4, h2, h3⟩

theorem exitArrayR_rel (S : SimAny R V df df') {f f' : Token} (hf : R f f') (hk : f.kind = .field) (o : ArrOp) (sh : ListShape)
    {ts ts' : List RTree} (h : RTreesRel R (UpperRel V) ts ts') {s s' : LState} (hs : LStRel R V s s') :
    RRel (LStRel R V) (exitArrayR df f o sh ts s) (exitArrayR df' f' o sh ts' s') :=
  shape_bind _ ((mapNodesR_rel S h hs.stack).bind
    (fun _ _ h => .ok ⟨.cons (.array o (S.field hf hk) h.1) h.2, hs.last, hs.count⟩))

theorem exitNot_relR (S : SimAny R V df df') {s s' : LState} (hs : LStRel R V s s') :
    RRel (LStRel R V) (exitNot s) (exitNot s') := by
  unfold exitNot
  obtain ⟨st, la, c⟩ := s
  obtain ⟨st', la', c'⟩ := s'
  obtain ⟨h1, h2, h3⟩ := hs
  simp only at h1 h2 h3 ⊢
  cases h1 with
  | cons h1 h1' => exact .ok ⟨.cons (.not_ h1) h1', h2, h3⟩
  | nil =>
    cases h2 with
    | none => exact .error _
    | @some t t' h =>
      simp only
      rw [← S.type h.1]
      exact (S.anyWord h.1).bind (fun _ _ q => .ok ⟨.cons (.word q) .nil, .some h, h3⟩)

theorem exitBin_relR (c : Bool) {s s' : LState} (hs : LStRel R V s s') : RRel (LStRel R V) (exitBin c s) (exitBin c s') := by
  unfold exitBin
  obtain ⟨st, la, n⟩ := s
  obtain ⟨st', la', n'⟩ := s'
  obtain ⟨h1, h2, h3⟩ := hs
  simp only at h1 h2 h3 ⊢
  cases h1 with
  | nil => exact .error _
  | cons h1 h1' =>
    cases h1' with
    | nil => exact .error _
    | cons h4 h5 =>
      cases c with
      | true => exact .ok ⟨.cons (.and_ h4 h1) h5, h2, h3⟩
      | false => exact .ok ⟨.cons (.or_ h4 h1) h5, h2, h3⟩

mutual
theorem walkR_rel (S : SimAny R V df df') : {t t' : RTree} → RTreeRel R (UpperRel V) t t' → {s s' : LState} →
    LStRel R V s s' → RRel (LStRel R V) (walkR df t s) (walkR df' t' s')
  | _, _, .paren h, _, _, hs => by rw [walkR, walkR]; exact walkR_rel S h hs
  | _, _, .not_ h, _, _, hs => by
    rw [walkR, walkR]; exact (walkR_rel S h hs).bind (fun _ _ h => exitNot_relR S h)
  | _, _, .neg h, _, _, hs => by
    rw [walkR, walkR]; exact (walkR_rel S h hs).bind (fun _ _ h' => exitNegR_rel S h h')
  | _, _, .cmp hl hr, _, _, hs => by
    rw [walkR, walkR]
    exact (walkR_rel S hl hs).bind (fun _ _ h => (walkR_rel S hr h).bind (fun _ _ h => exitMappedR_rel S (.cmp hl hr) h))
  | _, _, .arith h1 h2 hl hr, _, _, hs => by
    rw [walkR, walkR]
    exact (walkR_rel S hl hs).bind (fun _ _ h => (walkR_rel S hr h).bind
      (fun _ _ h => exitMappedR_rel S (.arith h1 h2 hl hr) h))
  | _, _, .bin hl hr, _, _, hs => by
    rw [walkR, walkR]
    exact (walkR_rel S hl hs).bind (fun _ _ h => (walkR_rel S hr h).bind (fun _ _ h => exitBin_relR _ h))
  | _, _, .func sh h1 h2 he, _, _, hs => by
    rw [walkR, walkR]; exact (walkAllR_rel S he hs).bind (fun _ _ h => exitMappedR_rel S (.func sh h1 h2 he) h)
  | _, _, .types e h h1 h2, _, _, hs => by
    rw [walkR, walkR]
    exact .ok ⟨hs.stack, .some ⟨h, h2⟩, by simp [hs.count]⟩
  | _, _, .to_ h1 k1 h2 k2 h3, _, _, hs => by
    rw [walkR, walkR]; exact exitMappedR_rel S (.to_ h1 k1 h2 k2 h3) hs
  | _, _, .in_ n sh h1 h2 he, _, _, hs => by
    rw [walkR, walkR]; exact (walkAllR_rel S he hs).bind (fun _ _ h => exitMappedR_rel S (.in_ n sh h1 h2 he) h)
  | _, _, .array o sh h1 h2 he, _, _, hs => by
    rw [walkR, walkR]; exact (walkAllR_rel S he hs).bind (fun _ _ h => exitArrayR_rel S h1 h2 o sh he h)
  | _, _, .bad, _, _, hs => by rw [walkR, walkR]; exact .ok hs
theorem walkAllR_rel (S : SimAny R V df df') : {ts ts' : List RTree} → RTreesRel R (UpperRel V) ts ts' →
    {s s' : LState} → LStRel R V s s' → RRel (LStRel R V) (walkAllR df ts s) (walkAllR df' ts' s')
  | _, _, .nil, _, _, hs => by rw [walkAllR, walkAllR]; exact .ok hs
  | _, _, .cons h1 h2, _, _, hs => by
    rw [walkAllR, walkAllR]; exact (walkR_rel S h1 hs).bind (fun _ _ h => walkAllR_rel S h2 h)
end

theorem exitParse_relR (S : SimAny R V df df') {s s' : LState} (hs : LStRel R V s s') :
    RRel (TopRel V) (exitParse s) (exitParse s') := by
  unfold exitParse
  obtain ⟨st, la, n⟩ := s
  obtain ⟨st', la', n'⟩ := s'
  obtain ⟨h1, h2, h3⟩ := hs
  simp only at h1 h2 h3 ⊢
  subst h3
  cases h1 with
  | cons h _ => exact .ok (.inl h)
  | nil =>
    cases h2 with
    | none => exact .error _
    | @some t t' h =>
      simp only
      by_cases hn : n = 1
      · rw [if_pos hn, if_pos hn, ← S.kind h.1]
        by_cases hf : t.kind = .field
        · rw [if_pos hf, if_pos hf]; exact .ok (.inl (.field (S.field h.1 hf)))
        · rw [if_neg hf, if_neg hf]; exact (S.anyLone h.1 h.2 hf).bind (fun _ _ h => .ok (.inr ⟨_, _, rfl, rfl, h⟩))
      · rw [if_neg hn, if_neg hn]; exact .error _

/-- Any two texts with related tokens have related nodes. -/
theorem parseAny_rel (S : SimAny R V df df') {s s' : JStr} (h : List.Forall₂ R (lex s) (lex s'))
    (hb : KeptToks (lex s) (lex s')) : RRel (TopRel V) (parseAny s df) (parseAny s' df') := by
  unfold parseAny
  have := rParse_rel S.alike h (.inr hb)
  revert this
  generalize rParse (lex s) = x
  generalize rParse (lex s') = x'
  intro this
  cases this with
  | none => exact .error _
  | some h => exact (walkR_rel S h.1 ⟨.nil, .none, rfl⟩).bind (fun _ _ h => exitParse_relR S h)

variable {env env' : Env} {d d' : Data}

theorem evaluateAny_sim (S : SimAny R V df df') (E : EvalSim V env env' d d') {s s' : JStr}
    (h : List.Forall₂ R (lex s) (lex s')) (hb : KeptToks (lex s) (lex s')) :
    evaluateAny env s d df = evaluateAny env' s' d' df' := by
  unfold evaluateAny
  have := parseAny_rel S h hb
  revert this
  generalize parseAny s df = x
  generalize parseAny s' df' = x'
  intro this
  cases this with
  | error e => rfl
  | ok h =>
    rw [ok_bind, ok_bind]
    rcases h with h | ⟨v, v', rfl, rfl, h⟩
    · exact evalBool_sim E h
    · rw [evalBool, evalBool, E.lone h]

theorem evaluateArithAny_sim (S : SimAny R V none none) (E : EvalSim V env env' d d')
    (hl : ∀ {v v'}, V.lone v v' → v = v') {s s' : JStr}
    (h : List.Forall₂ R (lex s) (lex s')) (hb : KeptToks (lex s) (lex s')) :
    evaluateArithAny env s d = evaluateArithAny env' s' d' := by
  unfold evaluateArithAny
  have := parseAny_rel S h hb
  revert this
  generalize parseAny s none = x
  generalize parseAny s' none = x'
  intro this
  cases this with
  | error e => rfl
  | ok h =>
    rw [ok_bind, ok_bind]
    rcases h with h | ⟨v, v', rfl, rfl, h⟩
    · exact evalArith_sim E h
    · rw [evalArith, evalArith, hl h]

/-! ### Interchangeable tokens -/

/-- Interchangeable tokens, for any text. -/
def TokAny (env env' : Env) (d d' : Data) (strict : Bool) (t t' : Token) : Prop :=
  (TokOk d d' strict t t' ∧ TokEnv env env' t) ∧
    (strict = true → startsTypes t.kind = true → t.kind ≠ .field → t.text = t'.text)

theorem tok_simAny {strict : Bool} (hdf : ORel (V0 env env' d d' strict).field df df') (he : TokOk d d' strict eofTok eofTok) :
    SimAny (TokAny env env' d d' strict) (V0 env env' d d' strict) df df' where
  kind h := (tok_sim hdf).kind h.1
  type h := (tok_sim hdf).type h.1
  field h := (tok_sim hdf).field h.1
  lit h := (tok_sim hdf).lit h.1
  bound h := (tok_sim (env := env) (env' := env') hdf).bound h
  lone h := (tok_sim hdf).lone h.1
  word h := (tok_sim hdf).word h.1
  fn h := (tok_sim hdf).fn h.1
  op h := (tok_sim hdf).op h.1
  dflt := hdf
  eof := ⟨⟨he, eof_env _ _⟩, fun _ _ _ => rfl⟩
  same _ := rfl
  anyLone h hs hk := by
    obtain ⟨⟨h, -⟩, h2⟩ := h
    cases h with
    | same t _ h => exact RRel.refl_ok (fun v hv => ⟨evalUnary_agree (h _ v (.inr rfl) hv), fun _ => rfl⟩)
    | field => exact absurd rfl hk
    | table k x x' hx hx' hg _ =>
      simp only at h2 hs hk ⊢
      rw [convert_unquoted (table_unquoted hx), convert_unquoted (table_unquoted hx')]
      exact .ok ⟨evalUnary_name hg, fun h => by rw [h2 h hs hk]⟩
  anyWord h := by
    obtain ⟨⟨h, -⟩, -⟩ := h
    cases h with
    | same t _ h => exact RRel.refl_ok (fun v hv => evalUnary_agree (h _ v (.inl rfl) hv))
    | field f f' h1 h2 hg _ =>
      show RRel _ (convertValue f .string) (convertValue f' .string)
      rw [convert_unquoted h1, convert_unquoted h2]
      exact .ok (evalUnary_name hg)
    | table k x x' hx hx' hg hs =>
      simp only
      by_cases hb : tokType ⟨k, x⟩ = .boolean
      · rw [hb, table_true hx hx' hb]
        exact RRel.refl_ok (fun v _ => evalUnary_agree (fun h => absurd rfl h))
      · rw [table_string hx hb, convert_unquoted (table_unquoted hx), convert_unquoted (table_unquoted hx')]
        exact .ok (evalUnary_name hg)

theorem evaluateAny_tokens {s s' : JStr} (hdf : ORel (V0 env env' d d' false).field df df')
    (he : TokOk d d' false eofTok eofTok)
    (h : List.Forall₂ (fun t t' => TokOk d d' false t t' ∧ TokEnv env env' t) (lex s) (lex s'))
    (hb : KeptToks (lex s) (lex s')) : evaluateAny env s d df = evaluateAny env' s' d' df' :=
  evaluateAny_sim (tok_simAny hdf he) (V0_sim ..) (forall2_imp h fun _ _ h => ⟨h, nofun⟩) hb

theorem evaluateArithAny_tokens {s s' : JStr} (he : TokOk d d' true eofTok eofTok)
    (h : List.Forall₂ (TokAny env env' d d' true) (lex s) (lex s')) (hb : KeptToks (lex s) (lex s')) :
    evaluateArithAny env s d = evaluateArithAny env' s' d' :=
  evaluateArithAny_sim (tok_simAny .none he) (V0_sim ..) (fun h => h.2 rfl) h hb

/-! ### Kinds only -/

/-- Texts whose tokens are of the same kinds get the same number of error reports. -/
theorem reported_kinds {s s' : JStr} (h : List.Forall₂ (fun t t' : Token => t.kind = t'.kind) (lex s) (lex s')) :
    reportedErrors s = reportedErrors s' := by
  unfold reportedErrors
  have := rParse_rel (R := fun t t' => t.kind = t'.kind) (B := fun _ _ => True) ⟨id, rfl, fun _ _ => trivial, fun _ _ => trivial⟩ h
    (.inl fun _ _ => trivial)
  revert this
  generalize rParse (lex s) = x
  generalize rParse (lex s') = x'
  intro this
  cases this with
  | none => rfl
  | some h => exact h.2

end BoolParser
