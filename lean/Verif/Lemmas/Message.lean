import Verif.Spec.Message
import Verif.Lemmas.AskCond
import Verif.Lemmas.Blame
/-!
# Which key a DataNotFoundException names (for C97)
-/

namespace BoolParser
open Spec

theorem say_bind {α β : Type} (m : Say α) (f : α → Say β) (h : List JStr) : (m >>= f) h =
    match m h with
    | (h', .ok a) => f a h'
    | (h', .error e) => (h', .error e) := rfl

/-- `x` is `y` with keys: the one of the last question if it was answered with nothing; none if the map itself threw the
exception. -/
def Voices {α : Type} (S : UserMap) (x : List JStr × Except Complaint α) (y : List JStr × Result α) : Prop :=
  x.1 = y.1 ∧ unsaid x.2 = y.2 ∧ ∀ c, x.2 = .error c →
    (c.exn = .dataNotFound → ∃ g k, x.1 = g ++ [k] ∧
      (S g k = .ok none ∧ c.key = some k ∨ S g k = .error .dataNotFound ∧ c.key = none)) ∧
    (c.exn ≠ .dataNotFound → c.key = none)

variable {S : UserMap}

theorem voices_said {α : Type} {r : Result α} (hc : Calm r) (h : List JStr) : Voices S (said r h) (told r h) := by
  cases r with
  | ok a => exact ⟨rfl, rfl, nofun⟩
  | error e =>
    refine ⟨rfl, rfl, fun c hc' => ?_⟩
    cases hc'
    exact ⟨fun he => absurd (congrArg Except.error he) hc.out, fun _ => rfl⟩

theorem voices_ok {α : Type} (a : α) (h : List JStr) : Voices S ((pure a : Say α) h) ((pure a : Ask α) h) :=
  voices_said (calm_ok a) h

theorem voices_bind {α β : Type} {m : Say α} {a : Ask α} {f : α → Say β} {g : α → Ask β} {h : List JStr}
    (hm : Voices S (m h) (a h)) (hf : ∀ x h', m h = (h', .ok x) → Voices S (f x h') (g x h')) :
    Voices S ((m >>= f) h) ((a >>= g) h) := by
  rw [say_bind, ask_bind]
  obtain ⟨h1, h2, h3⟩ := hm
  generalize m h = x at *
  generalize a h = y at *
  obtain ⟨x1, x2⟩ := x
  obtain ⟨y1, y2⟩ := y
  simp only at h1 h2 h3
  subst h1; subst h2
  cases x2 with
  | ok v => exact hf v x1 rfl
  | error c => exact ⟨rfl, rfl, fun c' hc => by cases hc; exact h3 c rfl⟩

theorem voices_field (f : Option JStr) (h : List JStr) : Voices S (sayField S f h) (askField S f h) := by
  cases f with
  | none => exact voices_said ⟨by intro h; cases h⟩ h
  | some k =>
    show Voices S (h ++ [k], silent (S h k)) (h ++ [k], S h k)
    cases e : S h k with
    | ok a => exact ⟨rfl, rfl, nofun⟩
    | error x =>
      refine ⟨rfl, rfl, fun c hc => ?_⟩
      cases hc
      exact ⟨fun he => ⟨h, k, rfl, .inr ⟨by rw [e]; exact congrArg _ he, rfl⟩⟩, fun _ => rfl⟩

/-- If the answer is nothing, it is the answer of the map to the last question. -/
theorem sayField_none {f : Option JStr} {h h' : List JStr} (e : sayField S f h = (h', .ok none)) :
    ∃ k, f = some k ∧ h' = h ++ [k] ∧ S h k = .ok none := by
  cases f with
  | none => cases e
  | some k =>
    have e : (h ++ [k], silent (S h k)) = (h', .ok none) := e
    cases hs : S h k with
    | error x => rw [hs] at e; cases e
    | ok o => rw [hs] at e; cases e; exact ⟨k, rfl, rfl, hs⟩

theorem voices_notFound {α : Type} {h : List JStr} {k : JStr} (e : S h k = .ok none) :
    Voices S ((complain (notFound (some k)) : Say α) (h ++ [k])) ((told (.error .dataNotFound) : Ask α) (h ++ [k])) := by
  refine ⟨rfl, rfl, fun c hc => ?_⟩
  cases hc
  exact ⟨fun _ => ⟨h, k, rfl, .inl ⟨e, rfl⟩⟩, fun hn => absurd rfl hn⟩

theorem voices_required (f : Option JStr) (h : List JStr) : Voices S (sayRequired S f h) (askRequired S f h) := by
  refine voices_bind (voices_field f h) fun o h' e => ?_
  cases o with
  | some v => exact voices_ok v h'
  | none =>
    obtain ⟨k, rfl, rfl, hs⟩ := sayField_none e
    exact voices_notFound hs

mutual
theorem evalArithM_voices (env : Env) : (n : Node) → (h : List JStr) → Voices S (evalArithM S env n h) (evalArithA S env n h)
  | .arith op l r, h => by
    simp only [evalArithM, evalArithA]
    exact voices_bind (evalArithM_voices env l h) fun a h' _ => voices_bind (evalArithM_voices env r h') fun b h'' _ =>
      voices_said (calm_arithBinary _ _ _ _ _ _) h''
  | .neg l, h => by
    simp only [evalArithM, evalArithA]
    exact voices_bind (evalArithM_voices env l h) fun a h' _ => voices_said (calm_arithNegate _ _) h'
  | .func f items, h => by
    simp only [evalArithM, evalArithA]
    exact voices_bind (evalArithAllM_voices env items h) fun a h' _ => voices_said (calm_callFn _ _ _) h'
  | .unary _ v, h => by simp only [evalArithM, evalArithA]; exact voices_ok v h
  | .field f, h => by simp only [evalArithM, evalArithA]; exact voices_required f h
  | .cmp _ _ _ _, h => by simp only [evalArithM, evalArithA]; exact voices_said ⟨by intro h; cases h⟩ h
  | .range _ _ _ _ _, h => by simp only [evalArithM, evalArithA]; exact voices_said ⟨by intro h; cases h⟩ h
  | .inn _ _, h => by simp only [evalArithM, evalArithA]; exact voices_said ⟨by intro h; cases h⟩ h
  | .array _ _ _, h => by simp only [evalArithM, evalArithA]; exact voices_said ⟨by intro h; cases h⟩ h
  | .and_ _ _, h => by simp only [evalArithM, evalArithA]; exact voices_said ⟨by intro h; cases h⟩ h
  | .or_ _ _, h => by simp only [evalArithM, evalArithA]; exact voices_said ⟨by intro h; cases h⟩ h
  | .not_ _, h => by simp only [evalArithM, evalArithA]; exact voices_said ⟨by intro h; cases h⟩ h
theorem evalArithAllM_voices (env : Env) : (ns : List Node) → (h : List JStr) →
    Voices S (evalArithAllM S env ns h) (evalArithAllA S env ns h)
  | [], h => by simp only [evalArithAllM, evalArithAllA]; exact voices_ok _ h
  | n :: ns, h => by
    simp only [evalArithAllM, evalArithAllA]
    exact voices_bind (evalArithM_voices env n h) fun a h' _ => voices_bind (evalArithAllM_voices env ns h') fun b h'' _ =>
      voices_ok _ h''
end

theorem optOf_some {v : Value} {o : Option Value} (h : optOf v = .ok o) : o ≠ none := by
  cases v <;> cases h <;> nofun

/-- An operand is nothing only if it is a field and the map has nothing. -/
theorem operandM_none {env : Env} {n : Node} {b : Say Bool} {h h' : List JStr} (e : operandValueM S env n b h = (h', .ok none)) :
    ∃ k, n = .field (some k) ∧ h' = h ++ [k] ∧ S h k = .ok none := by
  have arith : ∀ m : Say Value, (m >>= fun v => said (optOf v)) h = (h', .ok none) → False := by
    intro m he
    rw [say_bind] at he
    generalize m h = x at he
    obtain ⟨x1, x2⟩ := x
    cases x2 with
    | error c => cases he
    | ok v =>
      have he : (x1, silent (optOf v)) = (h', .ok none) := he
      cases ho : optOf v with
      | error x => rw [ho] at he; cases he
      | ok o => rw [ho] at he; cases he; exact optOf_some ho rfl
  have bool : ∀ m : Say Bool, (m >>= fun x => (pure (some (.bool x)) : Say (Option Value))) h = (h', .ok none) → False := by
    intro m he
    rw [say_bind] at he
    generalize m h = x at he
    obtain ⟨x1, x2⟩ := x
    cases x2 <;> cases he
  cases n with
  | field f =>
    obtain ⟨k, rfl, h1, h2⟩ := sayField_none e
    exact ⟨k, rfl, h1, h2⟩
  | unary dt v =>
    have e : (h, silent (optOf v)) = (h', .ok none) := e
    cases ho : optOf v with
    | error x => rw [ho] at e; cases e
    | ok o => rw [ho] at e; cases e; exact absurd rfl (optOf_some ho)
  | arith op l r => exact (arith _ e).elim
  | neg l => exact (arith _ e).elim
  | func f items => exact (arith _ e).elim
  | _ => exact (bool _ e).elim

theorem operandM_voices (env : Env) (n : Node) {b : Say Bool} {b' : Ask Bool} {h : List JStr} (hb : Voices S (b h) (b' h)) :
    Voices S (operandValueM S env n b h) (operandValueA S env n b' h) := by
  cases n with
  | field f => exact voices_field f h
  | unary dt v => exact voices_said (calm_optOf v) h
  | arith op l r => exact voices_bind (evalArithM_voices env _ h) fun v h' _ => voices_said (calm_optOf v) h'
  | neg l => exact voices_bind (evalArithM_voices env _ h) fun v h' _ => voices_said (calm_optOf v) h'
  | func f items => exact voices_bind (evalArithM_voices env _ h) fun v h' _ => voices_said (calm_optOf v) h'
  | _ => exact voices_bind hb fun x h' _ => voices_ok _ h'

theorem itemM_voices (env : Env) (n : Node) {b : Say Bool} {b' : Ask Bool} {h : List JStr} (hb : Voices S (b h) (b' h)) :
    Voices S (itemValueM S env n b h) (itemValueA S env n b' h) := by
  unfold itemValueM itemValueA
  split
  · exact evalArithM_voices env n h
  · exact voices_bind hb fun x h' _ => voices_ok _ h'

theorem comparisonM_voices (env : Env) (op : CmpOp) (l r : Node) {b : Say Bool} {rv : Say (Option Value)}
    {lv' rv' : Ask (Option Value)} {h : List JStr} (hl : Voices S (operandValueM S env l b h) (lv' h))
    (hr : ∀ h, Voices S (rv h) (rv' h)) :
    Voices S (evalComparisonM op l r (operandValueM S env l b) rv h) (evalComparisonA op l r lv' rv' h) := by
  unfold evalComparisonM evalComparisonA
  refine voices_bind hl fun lo h1 e1 => voices_bind (voices_said (calm_isNullCheck op l r) h1) fun nc h2 e2 => ?_
  have e2 : (h1, silent (isNullCheck op l r)) = (h2, .ok nc) := e2
  obtain rfl : h1 = h2 := by injection e2
  refine voices_bind ?_ fun a h3 _ => voices_bind ?_ fun b h4 _ => voices_said (calm_logicalCmp _ _ _ _ _) h4
  · cases nc with
    | true => exact voices_ok _ _
    | false =>
      cases lo with
      | some v => exact voices_ok _ _
      | none =>
        obtain ⟨k, rfl, rfl, hs⟩ := operandM_none e1
        exact voices_notFound hs
  · cases nc with
    | true => exact voices_ok _ _
    | false => exact voices_bind (hr h3) fun ro h4 _ => voices_said (by cases ro <;> exact ⟨by intro h; cases h⟩) h4

theorem unaryM_voices (dt : DataType) (v : Value) (h : List JStr) : Voices S (evalUnaryM S dt v h) (evalUnaryA S dt v h) := by
  unfold evalUnaryM evalUnaryA
  split
  · exact voices_said (by cases v <;> exact ⟨by intro h; cases h⟩) h
  · exact voices_bind (voices_said (calm_toText v) h) fun k h1 _ => voices_bind (voices_required _ h1) fun x h2 _ =>
      voices_said (by cases x <;> exact ⟨by intro h; cases h⟩) h2

theorem calm_inBounds (v lo hi : Value) (loT hiT : DataType) : Calm (inBounds v lo hi loT hiT) :=
  calm_bind (calm_logicalCmp _ _ _ _ _) fun _ => calm_bind (calm_logicalCmp _ _ _ _ _) fun _ => calm_pure _

theorem calm_arrayTest (op : ArrOp) (v : Value) (vs : List Value) : Calm (arrayTest op v vs) := by
  unfold arrayTest
  exact calm_check (by decide) fun _ => calm_logicalArray _ _ _ _

mutual
theorem evalBoolM_voices (env : Env) : (n : Node) → (h : List JStr) → Voices S (evalBoolM S env n h) (evalBoolA S env n h)
  | .cmp l r op dt, h => by
    simp only [evalBoolM, evalBoolA]
    exact comparisonM_voices env op l r (operandM_voices env l (evalBoolM_voices env l h))
      fun h' => operandM_voices env r (evalBoolM_voices env r h')
  | .range f lo hi loT hiT, h => by
    simp only [evalBoolM, evalBoolA]
    exact voices_bind (voices_required _ h) fun v h' _ => voices_said (calm_inBounds _ _ _ _ _) h'
  | .inn f items, h => by
    simp only [evalBoolM, evalBoolA]
    exact voices_bind (voices_required _ h) fun v h' _ => voices_bind (evalItemsM_voices env items h') fun vs h'' _ =>
      voices_said (calm_logicalIn _ _ _) h''
  | .array f op items, h => by
    simp only [evalBoolM, evalBoolA]
    exact voices_bind (voices_required _ h) fun v h' _ => voices_bind (evalItemsM_voices env items h') fun vs h'' _ =>
      voices_said (calm_arrayTest _ _ _) h''
  | .unary dt v, h => by simp only [evalBoolM, evalBoolA]; exact unaryM_voices dt v h
  | .and_ l r, h => by
    simp only [evalBoolM, evalBoolA]
    refine voices_bind (evalBoolM_voices env l h) fun a h' _ => ?_
    cases a
    · exact voices_ok _ h'
    · exact evalBoolM_voices env r h'
  | .or_ l r, h => by
    simp only [evalBoolM, evalBoolA]
    refine voices_bind (evalBoolM_voices env l h) fun a h' _ => ?_
    cases a
    · exact evalBoolM_voices env r h'
    · exact voices_ok _ h'
  | .not_ l, h => by
    simp only [evalBoolM, evalBoolA]
    exact voices_bind (evalBoolM_voices env l h) fun a h' _ => voices_ok _ h'
  | .field _, h => by simp only [evalBoolM, evalBoolA]; exact voices_ok _ h
  | .arith _ _ _, h => by simp only [evalBoolM, evalBoolA]; exact voices_ok _ h
  | .neg _, h => by simp only [evalBoolM, evalBoolA]; exact voices_ok _ h
  | .func _ _, h => by simp only [evalBoolM, evalBoolA]; exact voices_ok _ h
theorem evalItemsM_voices (env : Env) : (ns : List Node) → (h : List JStr) →
    Voices S (evalItemsM S env ns h) (evalItemsA S env ns h)
  | [], h => by simp only [evalItemsM, evalItemsA]; exact voices_ok _ h
  | n :: ns, h => by
    simp only [evalItemsM, evalItemsA]
    exact voices_bind (itemM_voices env n (evalBoolM_voices env n h)) fun a h' _ =>
      voices_bind (evalItemsM_voices env ns h') fun b h'' _ => voices_ok _ h''
end

/-! ## In a single test a missing field is the end -/

theorem prefix_split {g h x : List JStr} {k : JStr} (hk : g ++ [k] <+: x) (hh : h <+: x) : h <+: g ∨ g ++ [k] <+: h := by
  rcases List.prefix_or_prefix_of_prefix hk hh with h3 | h3
  · exact .inr h3
  · by_cases hl : h.length ≤ g.length
    · exact .inl (List.prefix_of_prefix_length_le h3 (List.prefix_append _ _) hl)
    · refine .inr ?_
      rw [h3.eq_of_length_le (by simp only [List.length_append, List.length_cons, List.length_nil]; omega)]

theorem no_question {h g : List JStr} {k : JStr} (hg : h <+: g) (hp : g ++ [k] <+: h) : False := by
  have := hg.length_le
  have := hp.length_le
  simp only [List.length_append, List.length_cons, List.length_nil] at *
  omega

/-- When the map has nothing, no more is asked; and the outcome is a failure, or nothing. -/
def HaltsOr {α : Type} (S : UserMap) (nothing : α → Prop) (m : Ask α) : Prop :=
  ∀ h, h <+: (m h).1 ∧ ∀ g k, h <+: g → g ++ [k] <+: (m h).1 → S g k = .ok none →
    (m h).1 = g ++ [k] ∧ ∀ a, (m h).2 = .ok a → nothing a

/-- When the map has nothing, that is the end. -/
abbrev Halts {α : Type} (S : UserMap) (m : Ask α) : Prop := HaltsOr S (fun _ => False) m

theorem halts_told {α : Type} {P : α → Prop} (r : Result α) : HaltsOr S P (told r) :=
  fun h => ⟨List.prefix_refl h, fun _ _ hg hp _ => (no_question hg hp).elim⟩

theorem halts_bind {α β : Type} {P : α → Prop} {m : Ask α} {f : α → Ask β} (h : HaltsOr S P m) (hf : ∀ x, Halts S (f x))
    (hn : ∀ x h', P x → (f x h').1 = h' ∧ ∀ b, (f x h').2 ≠ .ok b) : Halts S (m >>= f) := by
  intro h0
  obtain ⟨hp, hs⟩ := h h0
  rw [ask_bind]
  generalize m h0 = x at *
  obtain ⟨h', y⟩ := x
  simp only at hp hs
  cases y with
  | error e0 =>
    exact ⟨hp, fun g k hg hk he => ⟨(hs g k hg hk he).1, nofun⟩⟩
  | ok a =>
    obtain ⟨hp2, hs2⟩ := hf a h'
    refine ⟨hp.trans hp2, fun g k hg hk he => ?_⟩
    rcases prefix_split hk hp2 with hc | hc
    · exact hs2 g k hc hk he
    · obtain ⟨h1, h2⟩ := hs g k hg hc he
      obtain ⟨h3, h4⟩ := hn a h' (h2 a rfl)
      exact ⟨h3.trans h1, fun b hb => h4 b hb⟩

theorem halts_next {α β : Type} {m : Ask α} {f : α → Ask β} (h : Halts S m) (hf : ∀ x, Halts S (f x)) : Halts S (m >>= f) :=
  halts_bind h hf fun _ _ hx => hx.elim

theorem halts_field (f : Option JStr) : HaltsOr S (fun o => o = none) (askField S f) := by
  cases f with
  | none => exact halts_told _
  | some k =>
    refine fun h => ⟨List.prefix_append _ _, fun g k' hg hp he => ?_⟩
    have hp : g ++ [k'] <+: h ++ [k] := hp
    have h1 : g = h := by
      refine (hg.eq_of_length_le ?_).symm
      have := hp.length_le
      simp only [List.length_append, List.length_cons, List.length_nil] at this
      omega
    subst h1
    have h2 : g ++ [k'] = g ++ [k] := hp.eq_of_length (by simp)
    simp only [List.append_cancel_left_eq, List.cons.injEq, and_true] at h2
    subst h2
    refine ⟨rfl, fun a ha => ?_⟩
    have ha : S g k' = .ok a := ha
    rw [he] at ha
    cases ha; rfl

theorem halts_required (f : Option JStr) : Halts S (askRequired S f) := by
  refine halts_bind (halts_field f) (fun o => by cases o <;> exact halts_told _) fun o h' ho => ?_
  subst ho
  exact ⟨rfl, nofun⟩

mutual
theorem evalArithA_halts (env : Env) : (n : Node) → Halts S (evalArithA S env n)
  | .arith op l r => by
    simp only [evalArithA]
    exact halts_next (evalArithA_halts env l) fun a => halts_next (evalArithA_halts env r) fun b => halts_told _
  | .neg l => by simp only [evalArithA]; exact halts_next (evalArithA_halts env l) fun a => halts_told _
  | .func f items => by simp only [evalArithA]; exact halts_next (evalArithAllA_halts env items) fun a => halts_told _
  | .unary _ v => by simp only [evalArithA]; exact halts_told _
  | .field f => by simp only [evalArithA]; exact halts_required f
  | .cmp _ _ _ _ => by simp only [evalArithA]; exact halts_told _
  | .range _ _ _ _ _ => by simp only [evalArithA]; exact halts_told _
  | .inn _ _ => by simp only [evalArithA]; exact halts_told _
  | .array _ _ _ => by simp only [evalArithA]; exact halts_told _
  | .and_ _ _ => by simp only [evalArithA]; exact halts_told _
  | .or_ _ _ => by simp only [evalArithA]; exact halts_told _
  | .not_ _ => by simp only [evalArithA]; exact halts_told _
theorem evalArithAllA_halts (env : Env) : (ns : List Node) → Halts S (evalArithAllA S env ns)
  | [] => by simp only [evalArithAllA]; exact halts_told _
  | n :: ns => by
    simp only [evalArithAllA]
    exact halts_next (evalArithA_halts env n) fun a => halts_next (evalArithAllA_halts env ns) fun b => halts_told _
end

theorem halts_weaken {α : Type} {P : α → Prop} {m : Ask α} (h : Halts S m) : HaltsOr S P m := by
  intro h0
  obtain ⟨hp, hs⟩ := h h0
  exact ⟨hp, fun g k hg hk he => ⟨(hs g k hg hk he).1, fun a ha => ((hs g k hg hk he).2 a ha).elim⟩⟩

theorem operand_halts (env : Env) (e : Arith) (b : Ask Bool) :
    HaltsOr S (fun o => o = none) (operandValueA S env e.node b) := by
  have base : ∀ n : Node, n.isArithBase = true → HaltsOr S (fun o => o = none) (operandValueA S env n b) := by
    intro n hn
    cases n with
    | field f => exact halts_field f
    | unary dt v => exact halts_told _
    | arith op l r => exact halts_weaken (halts_next (evalArithA_halts env _) fun v => halts_told _)
    | neg l => exact halts_weaken (halts_next (evalArithA_halts env _) fun v => halts_told _)
    | func f items => exact halts_weaken (halts_next (evalArithA_halts env _) fun v => halts_told _)
    | _ => cases hn
  exact base _ (node_base e)

theorem items_halts (env : Env) : (es : List Arith) → Halts S (evalItemsA S env (Arith.nodes es))
  | [] => by simp only [Arith.nodes, evalItemsA]; exact halts_told _
  | e :: es => by
    simp only [Arith.nodes, evalItemsA]
    refine halts_next ?_ fun v => halts_next (items_halts env es) fun vs => halts_told _
    rw [itemValueA, if_pos (node_base e)]
    exact evalArithA_halts env _

theorem comparison_halts {op : CmpOp} {l r : Node} {lv rv : Ask (Option Value)}
    (hn : isNullCheck op l r = .ok false ∨ ∃ e, isNullCheck op l r = .error e) (hl : HaltsOr S (fun o => o = none) lv)
    (hr : HaltsOr S (fun o => o = none) rv) : Halts S (evalComparisonA op l r lv rv) := by
  unfold evalComparisonA
  refine halts_bind hl (fun lo => ?_) fun lo h' ho => ?_
  · rcases hn with hn | ⟨e, hn⟩
    · rw [hn]
      show Halts S (told (leftGiven false lo) >>= fun a => rightAsked false rv >>= fun b =>
        told (logicalCmp op a (getDataType a) b (getDataType b)))
      refine halts_next (halts_told _) fun x => halts_next ?_ fun y => halts_told _
      refine halts_bind hr (fun ro => halts_told _) fun ro h' ho => ?_
      subst ho
      exact ⟨rfl, nofun⟩
    · rw [hn]
      exact halts_told (.error e)
  · subst ho
    rcases hn with hn | ⟨e, hn⟩ <;> rw [hn] <;> exact ⟨rfl, nofun⟩

/-- A single test other than a null check ends at the first field that has no value. -/
theorem single_halts (env : Env) {df : Option JStr} (hdf : DefaultOk df) : (c : Cond) → c.Valid →
    ∀ left, c.readable left = true → c.single = true → c.isNullTest = false → Halts S (evalBoolA S env (c.node df))
  | .cmp o l r, hv, left, hrd, _, _ => by
    simp only [Cond.node, evalBoolA]
    exact comparison_halts (.inl (plain_cmp_node hv hrd)) (operand_halts env l _) (operand_halts env r _)
  | .cmpD o r, hv, left, hrd, _, _ => by
    simp only [Cond.node, evalBoolA]
    exact comparison_halts (cmpD_check hdf hv hrd) (halts_field df) (operand_halts env r _)
  | .range f lo hi, _, _, _, _, _ => by
    simp only [Cond.node, evalBoolA]
    exact halts_next (halts_required (some f)) fun v => halts_told _
  | .isIn f ng items, _, _, _, _, _ => by
    have : Halts S (evalBoolA S env (.inn f (Arith.nodes items))) := by
      simp only [evalBoolA]
      exact halts_next (halts_required (some f)) fun v => halts_next (items_halts env items) fun vs => halts_told _
    simp only [Cond.node]
    split
    · simp only [evalBoolA] at this ⊢
      exact halts_next this fun b => halts_told _
    · exact this
  | .contains f o items, _, _, _, _, _ => by
    simp only [Cond.node, evalBoolA]
    exact halts_next (halts_required (some f)) fun v => halts_next (items_halts env items) fun vs => halts_told _
  | .notField f, _, _, _, _, _ => by
    simp only [Cond.node, evalBoolA]
    refine halts_next ?_ fun b => halts_told _
    show Halts S (askRequired S (some f) >>= fun x => told (boolOperand x))
    exact halts_next (halts_required (some f)) fun x => halts_told _
  | .not c, hv, left, hrd, hs, hn => by
    simp only [Cond.node, evalBoolA]
    exact halts_next (single_halts env hdf c hv left hrd hs hn) fun b => halts_told _
  | .group c, hv, left, hrd, hs, hn => by
    simp only [Cond.node]
    exact single_halts env hdf c hv left hrd hs hn

end BoolParser
