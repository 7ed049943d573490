import Verif.Spec.Seen
import Verif.Lemmas.Fragment
import Verif.Lemmas.Ladder
/-!
# The arguments of a call on the listener's stack (for C44)
-/

namespace BoolParser
open Spec

/-- The tree is that of the expression, up to the spelling of keywords. -/
def Spelled (t : Tree) (e : Arith) : Prop := t.mapTok canon = e.tree ∧ t.sane = true

theorem Spelled.isTypes {t : Tree} {e : Arith} (h : Spelled t e) : t.isTypes = e.isAtom := by
  rw [← isTypes_mapTok canon, h.1, isAtom_isTypes]

theorem Spelled.node {t : Tree} {e : Arith} (h : Spelled t e) (hv : e.Valid) (df : Option JStr) : nodeOf df t = e.node := by
  rw [← nodeOf_canon df t h.2, h.1, arith_node df e hv]

theorem Spelled.sup {t : Tree} {e : Arith} (h : Spelled t e) (hv : e.Valid) (hb : e.basic = true) (top : Top) :
    Sup top t = true := by
  rw [← sup_canon t top h.2, h.1]
  exact arith_sup e hv top _ rfl (abasic_readable e hb _)

/-- A compound argument leaves its node on the stack, a field or literal nothing. -/
theorem Spelled.pushes {t : Tree} {e : Arith} (h : Spelled t e) (hv : e.Valid) (hb : e.basic = true) (df : Option JStr) :
    pushes df t = if e.isAtom then [] else [e.node] := by
  split
  · rename_i ha; exact isTypes_pushes (by rw [h.isTypes, ha])
  · rename_i ha
    have hl : t.lean = true := by rw [← lean_mapTok canon, h.1, arith_lean, abasic_tidy e hb]
    rw [(pushes_cons df t .empty (h.sup hv hb _) (by rw [h.isTypes]; simpa using ha)).1, lean_tail df t hl, h.node hv]

/-- Trees of expressions. -/
def SpelledAll : List Tree → List Arith → Prop
  | [], [] => True
  | t :: ts, e :: es => Spelled t e ∧ SpelledAll ts es
  | _, _ => False

theorem spelledAll_of : (ts : List Tree) → (es : List Arith) → Tree.mapToks canon ts = Arith.trees es →
    Tree.sanes ts = true → SpelledAll ts es
  | [], [], _, _ => trivial
  | [], e :: es, h, _ => by rw [Tree.mapToks, Arith.trees] at h; cases h
  | t :: ts, [], h, _ => by rw [Tree.mapToks, Arith.trees] at h; cases h
  | t :: ts, e :: es, h, hs => by
    rw [Tree.mapToks, Arith.trees] at h
    injection h with h1 h2
    rw [Tree.sanes, Bool.and_eq_true] at hs
    exact ⟨⟨h1, hs.1⟩, spelledAll_of ts es h2 hs.2⟩

/-- The nodes of the compound ones. -/
def compoundNodes (es : List Arith) : List Node := (es.filter (fun e => !e.isAtom)).map Arith.node

theorem walk_spelled (df : Option JStr) : (ts : List Tree) → (es : List Arith) → SpelledAll ts es → Arith.AllValid es →
    es.all Arith.basic = true → ∀ s : LState, WalksAllTo df ts s (compoundNodes es).reverse
  | [], [], _, _, _, s => ⟨s.last, s.count, rfl⟩
  | [], _ :: _, h, _, _, _ => h.elim
  | _ :: _, [], h, _, _, _ => h.elim
  | t :: ts, e :: es, h, hv, hb, s => by
    rw [Arith.AllValid] at hv
    rw [List.all_cons, Bool.and_eq_true] at hb
    obtain ⟨l1, c1, h1⟩ := walk_sup df t _ (h.1.sup hv.1 hb.1 _) s rfl
    obtain ⟨l2, c2, h2⟩ := walk_spelled df ts es h.2 hv.2 hb.2 ⟨pushes df t ++ s.stack, l1, c1⟩
    refine ⟨l2, c2, ?_⟩
    rw [walkAll, h1]
    show walkAll df ts _ = _
    rw [h2, h.1.pushes hv.1 hb.1]
    cases ha : e.isAtom <;> simp [compoundNodes, ha]

/-- The result of `seenAs` on the nodes. -/
def SeenTo (r : Result (Node × NStack)) : Option (Arith × List Arith) → Prop
  | some (e, st) => r = .ok (e.node, st.map Arith.node)
  | none => ∃ x, r = .error x

theorem seenAs_op (o : ArithOp) (l r : Arith) (pending : List Arith) : (Arith.op o l r).seenAs pending =
    if l.isAtom && r.isAtom then some (.op o l r, pending)
    else if l.isAtom then
      match pending with
      | c :: rest => some (.op o l c, rest)
      | [] => none
    else if r.isAtom then
      match pending with
      | c :: rest => some (.op o c r, rest)
      | [] => none
    else
      match pending with
      | c :: c' :: rest => some (.op o c' c, rest)
      | _ => none := rfl

theorem map_spelled (df : Option JStr) {t : Tree} {e : Arith} (h : Spelled t e) (hv : e.Valid) (hb : e.basic = true)
    (st : List Arith) : SeenTo (mapNode df t (st.map Arith.node)) (e.seenAs st) := by
  have atom : e.isAtom = true → mapNode df t (st.map Arith.node) = .ok (e.node, st.map Arith.node) := by
    intro ha
    rw [sup_types (top := .empty) (h.sup hv hb _) (by rw [h.isTypes, ha]), h.node hv]
  cases e with
  | field f => exact atom rfl
  | lit l => exact atom rfl
  | neg e => cases hb
  | call f as => cases hb
  | group e =>
    obtain ⟨h1, h2⟩ := h
    rw [Arith.tree] at h1
    cases t <;> rw [Tree.mapTok] at h1 <;> first | cases h1; done | skip
    exact ⟨_, rfl⟩
  | op o l r =>
    obtain ⟨h1, h2⟩ := h
    rw [Arith.tree] at h1
    cases t <;> rw [Tree.mapTok] at h1 <;> first | cases h1; done | skip
    rename_i o' l' r'
    injection h1 with e1 e2 e3
    subst e1
    rw [Tree.sane, Bool.and_eq_true] at h2
    rw [Arith.Valid] at hv
    rw [Arith.basic, Bool.and_eq_true] at hb
    have hl : Spelled l' l := ⟨e2, h2.1⟩
    have hr : Spelled r' r := ⟨e3, h2.2⟩
    have ml : l.isAtom = true → ∀ st, mapNode df l' st = .ok (l.node, st) := fun ha st => by
      rw [sup_types (top := .empty) (hl.sup hv.1 hb.1 _) (by rw [hl.isTypes, ha]), hl.node hv.1]
    have mr : r.isAtom = true → ∀ st, mapNode df r' st = .ok (r.node, st) := fun ha st => by
      rw [sup_types (top := .empty) (hr.sup hv.2 hb.2 _) (by rw [hr.isTypes, ha]), hr.node hv.2]
    rw [mapNode_arith, hl.isTypes, hr.isTypes, seenAs_op]
    cases al : l.isAtom with
    | true =>
      cases ar : r.isAtom with
      | true =>
        simp only [Bool.and_self, if_true, ml al, ok_bind, mr ar]
        rfl
      | false =>
        simp only [Bool.and_false, Bool.false_eq_true, if_false, if_true, ml al, ok_bind]
        cases st with
        | nil => exact ⟨_, rfl⟩
        | cons c st => rfl
    | false =>
      cases ar : r.isAtom with
      | true =>
        simp only [Bool.and_true, Bool.false_eq_true, if_false, if_true, mr ar, ok_bind]
        cases st with
        | nil => exact ⟨_, rfl⟩
        | cons c st => rfl
      | false =>
        simp only [Bool.and_self, Bool.false_eq_true, if_false]
        cases st with
        | nil => exact ⟨_, rfl⟩
        | cons c st =>
          cases st with
          | nil => exact ⟨_, rfl⟩
          | cons c' st => rfl

theorem maps_spelled (df : Option JStr) : (ts : List Tree) → (es : List Arith) → SpelledAll ts es → Arith.AllValid es →
    es.all Arith.basic = true → ∀ st : List Arith,
    match Arith.seenAll es st with
    | some es' => ∃ st', mapNodes df ts (st.map Arith.node) = .ok (Arith.nodes es', st')
    | none => ∃ x, mapNodes df ts (st.map Arith.node) = .error x
  | [], [], _, _, _, st => ⟨_, rfl⟩
  | [], _ :: _, h, _, _, _ => h.elim
  | _ :: _, [], h, _, _, _ => h.elim
  | t :: ts, e :: es, h, hv, hb, st => by
    rw [Arith.AllValid] at hv
    rw [List.all_cons, Bool.and_eq_true] at hb
    have h1 := map_spelled df h.1 hv.1 hb.1 st
    rw [Arith.seenAll, mapNodes]
    cases e1 : e.seenAs st with
    | none =>
      rw [e1] at h1
      obtain ⟨x, h1⟩ := h1
      rw [h1]
      exact ⟨x, rfl⟩
    | some p =>
      obtain ⟨e', st'⟩ := p
      rw [e1] at h1
      have h1 : mapNode df t (st.map Arith.node) = .ok (e'.node, st'.map Arith.node) := h1
      rw [h1, ok_bind]
      have h2 := maps_spelled df ts es h.2 hv.2 hb.2 st'
      cases e2 : Arith.seenAll es st' with
      | none =>
        rw [e2] at h2
        obtain ⟨x, h2⟩ := h2
        simp only [e2, Option.map_none]
        rw [h2]
        exact ⟨x, rfl⟩
      | some es' =>
        rw [e2] at h2
        obtain ⟨st2, h2⟩ := h2
        simp only [e2, Option.map_some]
        rw [h2]
        exact ⟨st2, rfl⟩

/-- The tree of a text of an expression. -/
theorem spelled_parse {e : Arith} {s : JStr} (hv : e.Valid) (hg : e.Grouped) (hs : Renders e.lexemes s) :
    ∃ t, parseTokens (lex s) = some t ∧ Spelled t e := by
  rw [← arith_toks] at hs
  have hw := arith_WF e hv hg 0 (.inl (Nat.zero_le _))
  have h1 := parse_toks hw
  rw [← lex_renders (arith_valid e hv) hs, parseTokens_map canon_kind canon_eof] at h1
  cases h2 : parseTokens (lex s) with
  | none => rw [h2] at h1; cases h1
  | some t' =>
    rw [h2] at h1
    injection h1 with h1
    exact ⟨t', rfl, h1, by rw [← sane_mapTok canon_kind, h1]; exact sane_of_WF e.tree 0 hw⟩

theorem call_seen {f : FuncType} {args : List Arith} {s : JStr} (hv : (Arith.call f args).Valid)
    (hg : (Arith.call f args).Grouped) (hb : args.all Arith.basic = true) (hs : Renders (Arith.call f args).lexemes s)
    (df : Option JStr) :
    match Arith.seen args with
    | some as => parseExpression s df = .success (.func f (Arith.nodes as))
    | none => ∃ x, parseExpression s df = .failure x := by
  obtain ⟨t, h1, h2, h3⟩ := spelled_parse hv hg hs
  rw [Arith.tree] at h2
  cases t <;> rw [Tree.mapTok] at h2 <;> first | cases h2; done | skip
  rename_i f' items
  injection h2 with e1 e2
  subst e1
  rw [Tree.sane] at h3
  rw [Arith.Valid] at hv
  have hsp := spelledAll_of items args e2 h3
  obtain ⟨l, c, hw⟩ := walk_spelled df items args hsp hv.2 hb LState.init
  have hm := maps_spelled df items args hsp hv.2 hb (args.filter (fun e => !e.isAtom)).reverse
  have hp : parseExpression s df = .ofResult (listen df (.func f' items)) := by rw [parseExpression, h1]
  have hk : listen df (.func f' items) = (do
      let (ns, st) ← mapNodes df items ((args.filter (fun e => !e.isAtom)).reverse.map Arith.node)
      exitParse ⟨.func f' ns :: st, l, c⟩) := by
    rw [listen, walk, hw]
    show (exitMapped df (.func f' items) _ >>= fun s => _) = _
    rw [exitMapped, mapNode]
    have : (compoundNodes args).reverse ++ LState.init.stack
        = (args.filter (fun e => !e.isAtom)).reverse.map Arith.node := by
      simp [compoundNodes, LState.init, List.map_reverse]
    simp only [this]
    cases mapNodes df items ((args.filter (fun e => !e.isAtom)).reverse.map Arith.node) <;> rfl
  rw [hp, hk, Arith.seen]
  cases e3 : Arith.seenAll args (args.filter (fun e => !e.isAtom)).reverse with
  | none =>
    rw [e3] at hm
    obtain ⟨x, hm⟩ := hm
    rw [hm]
    exact ⟨x, rfl⟩
  | some as =>
    rw [e3] at hm
    obtain ⟨st, hm⟩ := hm
    rw [hm]
    rfl

theorem seenAs_valid {e e' : Arith} {st st' : List Arith} (h : e.seenAs st = some (e', st')) (hv : e.Valid)
    (hs : Arith.AllValid st) : e'.Valid ∧ Arith.AllValid st' := by
  cases e with
  | op o l r =>
    rw [Arith.Valid] at hv
    rw [seenAs_op] at h
    split at h
    · cases h; exact ⟨by rw [Arith.Valid]; exact hv, hs⟩
    · split at h
      · cases st with
        | nil => cases h
        | cons c st =>
          cases h; rw [Arith.AllValid] at hs
          exact ⟨by rw [Arith.Valid]; exact ⟨hv.1, hs.1⟩, hs.2⟩
      · split at h
        · cases st with
          | nil => cases h
          | cons c st =>
            cases h; rw [Arith.AllValid] at hs
            exact ⟨by rw [Arith.Valid]; exact ⟨hs.1, hv.2⟩, hs.2⟩
        · cases st with
          | nil => cases h
          | cons c st =>
            cases st with
            | nil => cases h
            | cons c' st =>
              cases h; rw [Arith.AllValid, Arith.AllValid] at hs
              exact ⟨by rw [Arith.Valid]; exact ⟨hs.2.1, hs.1⟩, hs.2.2⟩
  | group e => cases h
  | field f => cases h; exact ⟨hv, hs⟩
  | lit l => cases h; exact ⟨hv, hs⟩
  | neg e => cases h; exact ⟨hv, hs⟩
  | call f as => cases h; exact ⟨hv, hs⟩

theorem seenAll_valid : (es : List Arith) → (st es' : List Arith) → Arith.seenAll es st = some es' → Arith.AllValid es →
    Arith.AllValid st → Arith.AllValid es'
  | [], st, es', h, _, _ => by cases h; trivial
  | e :: es, st, es', h, hv, hs => by
    rw [Arith.AllValid] at hv
    rw [Arith.seenAll] at h
    cases e1 : e.seenAs st with
    | none => rw [e1] at h; cases h
    | some p =>
      obtain ⟨e', st'⟩ := p
      rw [e1] at h
      obtain ⟨h1, h2⟩ := seenAs_valid e1 hv.1 hs
      cases e2 : Arith.seenAll es st' with
      | none => simp only [e2, Option.map_none] at h; cases h
      | some es2 =>
        simp only [e2, Option.map_some] at h
        cases h
        rw [Arith.AllValid]
        exact ⟨h1, seenAll_valid es st' es2 e2 hv.2 h2⟩

theorem allValid_iff : (es : List Arith) → (Arith.AllValid es ↔ ∀ e ∈ es, e.Valid)
  | [] => by simp [Arith.AllValid]
  | e :: es => by rw [Arith.AllValid, allValid_iff es]; simp

theorem seen_valid {args as : List Arith} (h : Arith.seen args = some as) (hv : Arith.AllValid args) : Arith.AllValid as := by
  refine seenAll_valid args _ as h hv ?_
  rw [allValid_iff] at hv ⊢
  intro e he
  simp only [List.mem_reverse, List.mem_filter] at he
  exact hv e he.1

end BoolParser
