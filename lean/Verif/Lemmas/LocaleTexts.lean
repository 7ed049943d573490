import Verif.Lemmas.Locale
import Verif.Lemmas.CondNode
import Verif.Lemmas.Families
import Verif.Spec.Locale
import Verif.Props.Lexical
/-!
# Texts under a default locale
-/

namespace BoolParser
open Spec

/-! ## The table of tokens -/

theorem name_table {t : JStr} {k : TK} (h : Classified t k) (hk : k.isName = true) : (t, k) ∈ tokenTable := by
  cases h with
  | table h => exact h
  | _ => cases hk

/-- The look-up of a token finds what its kind says. -/
def looksUp (loc : Locale) (p : JStr × TK) : Bool :=
  match p.2 with
  | .fn f => functionIn loc p.1 == some f
  | .cAll => arrayKnown loc .containsAll p.1
  | .cAny => arrayKnown loc .containsAny p.1
  | _ => true

theorem looksUp_fine {loc : Locale} {t : JStr} {k : TK} (h : looksUp loc (t, k) = true) : KnownName loc True k t := by
  refine ⟨fun f hf => ?_, fun _ o ho => ?_⟩
  · subst hf; simpa [looksUp] using h
  · subst ho; cases o <;> exact h

theorem looksUp_common : tokenTable.all (looksUp .common) = true := by krfl

theorem looksUp_turkish : tokenTable.all (fun p => decide (p.1 ∈ dottedFunctions) || (decide (p.1 ∈ dottedKeywords) ||
    looksUp .turkish p)) = true := by krfl

/-- A name is found as what it is, or not at all. -/
def honest (p : JStr × TK) : Bool :=
  match p.2 with
  | .fn f => if p.1 ∈ dottedFunctions then functionIn .turkish p.1 == none else functionIn .turkish p.1 == some f
  | .cAll => decide (p.1 ∉ dottedFunctions) && arrayKnown .turkish .containsAll p.1 == decide (p.1 ∉ dottedKeywords)
  | .cAny => decide (p.1 ∉ dottedFunctions) && arrayKnown .turkish .containsAny p.1 == decide (p.1 ∉ dottedKeywords)
  | _ => decide (p.1 ∉ dottedFunctions)

theorem honest_all : tokenTable.all honest = true := by krfl

theorem fine_common {t : JStr} {k : TK} (h : (t, k) ∈ tokenTable) : KnownName .common True k t :=
  looksUp_fine (List.all_eq_true.1 looksUp_common _ h)

theorem fine_turkish {t : JStr} {k : TK} (h : (t, k) ∈ tokenTable) (h1 : t ∉ dottedFunctions) (h2 : t ∉ dottedKeywords) :
    KnownName .turkish True k t := by
  have := List.all_eq_true.1 looksUp_turkish _ h
  simp only [h1, h2, decide_false, Bool.false_or] at this
  exact looksUp_fine this

theorem KnownName.drop {loc : Locale} {t : JStr} {k : TK} (h : KnownName loc True k t) : KnownName loc False k t :=
  ⟨h.1, fun h => h.elim⟩

theorem fine_function {t : JStr} {k : TK} (h : (t, k) ∈ tokenTable) (h1 : t ∉ dottedFunctions) :
    KnownName .turkish False k t := by
  refine ⟨fun f hf => ?_, fun h => h.elim⟩
  subst hf
  have := List.all_eq_true.1 honest_all _ h
  simpa [honest, h1] using this

theorem fine_found {loc : Locale} {t : JStr} {k : TK} (h : (t, k) ∈ tokenTable) (hf : Found loc k t) :
    KnownName loc False k t := by
  cases loc with
  | common => exact (fine_common h).drop
  | turkish =>
    refine ⟨fun f e => ?_, fun h => h.elim⟩
    have h1 := List.all_eq_true.1 honest_all _ h
    have h2 := hf f e
    subst e
    simp only [honest] at h1
    split at h1
    · exact absurd (by simpa using h1) h2
    · simpa using h1

theorem lost_function {t : JStr} {k : TK} (h : (t, k) ∈ tokenTable) (ht : t ∈ dottedFunctions) :
    k.isName = true ∧ ¬ Found .turkish k t := by
  have h1 := List.all_eq_true.1 honest_all _ h
  cases k with
  | fn f =>
    refine ⟨rfl, fun hf => hf f rfl ?_⟩
    simpa [honest, ht] using h1
  | _ => simp [honest, ht] at h1

theorem lost_keyword {t : JStr} {o : ArrOp} (h : (t, o.kind) ∈ tokenTable) (ht : t ∈ dottedKeywords) :
    arrayKnown .turkish o t = false := by
  have h1 := List.all_eq_true.1 honest_all _ h
  cases o <;> (simp [honest, ArrOp.kind, ht] at h1; exact h1.2)

/-! ## Reading a text -/

variable {s : JStr} {df : Option JStr} {loc : Locale}

theorem tokens_table (s : JStr) : ∀ u ∈ lex s, u.kind.isName = true → (u.text, u.kind) ∈ tokenTable :=
  fun u hu hk => name_table (C49_kinds s u hu) hk

/-- The same outcome up to `Q`. -/
inductive SameOutcome {α β : Type} (Q : α → β → Prop) : Outcome α → Outcome β → Prop
  | success {a : α} {b : β} : Q a b → SameOutcome Q (.success a) (.success b)
  | failure (e : Exn) : SameOutcome Q (.failure e) (.failure e)
  | syntaxError : SameOutcome Q .syntaxError .syntaxError

theorem RRel.outcome {α β : Type} {Q : α → β → Prop} {x : Result α} {y : Result β} (h : RRel Q x y) :
    SameOutcome Q (.ofResult x) (.ofResult y) := by
  cases h with
  | error e => exact .failure e
  | ok h => exact .success h

theorem treeOf_some {t : Tree} (h : parseTokens (lex s) = some t) :
    treeOf s = some (dress t ((lex s).filter fun k => k.kind.isName)).1 := by
  rw [treeOf, h]; rfl

theorem parseIn_rel {k : Prop} (h : ∀ u ∈ lex s, u.kind.isName = true → KnownName loc k u.kind u.text) :
    SameOutcome (Stands k) (parseIn loc s df) (parseExpression s df) := by
  unfold parseIn parseExpression
  cases e : parseTokens (lex s) with
  | none =>
    have : treeOf s = none := by rw [treeOf, e]; rfl
    rw [this]; exact .syntaxError
  | some t =>
    obtain ⟨h1, h2⟩ := dressed e (KnownName loc k)
    have h3 := listenN_rel (df := df) (h2.2 h)
    rw [h1] at h3
    rw [treeOf_some e]
    exact h3.outcome

theorem parseIn_found {n : NNode} (h : parseIn loc s df = .success n) :
    ∀ u ∈ lex s, u.kind.isName = true → Found loc u.kind u.text := by
  unfold parseIn at h
  cases e : parseTokens (lex s) with
  | none =>
    have : treeOf s = none := by rw [treeOf, e]; rfl
    rw [this] at h; cases h
  | some t =>
    rw [treeOf_some e] at h
    simp only at h
    refine (dressed e (Found loc)).2.1 ?_
    cases hw : walkN loc df (dress t ((lex s).filter fun k => k.kind.isName)).1 ⟨[], none, 0⟩ with
    | error e => rw [hw] at h; cases h
    | ok s' => exact walkN_found _ hw

theorem parseIn_sound {n : NNode} (h : parseIn loc s df = .success n) : parseExpression s df = .success n.erase := by
  have h1 : ∀ u ∈ lex s, u.kind.isName = true → KnownName loc False u.kind u.text :=
    fun u hu hk => fine_found (tokens_table s u hu hk) (parseIn_found h u hu hk)
  have h2 := parseIn_rel (df := df) h1
  rw [h] at h2
  cases hp : parseExpression s df with
  | success m =>
    rw [hp] at h2
    cases h2 with
    | success h2 => rw [h2.1]
  | failure e => rw [hp] at h2; cases h2
  | syntaxError => rw [hp] at h2; cases h2

/-- All names found: the text means the same. -/
theorem sameIn (h : ∀ u ∈ lex s, u.kind.isName = true → KnownName loc True u.kind u.text) (env : Env) (d : Data)
    (df : Option JStr) : evaluateIn loc env s d df = evaluate env s d df ∧
      evaluateArithIn loc env s d = evaluateArith env s d := by
  constructor
  · have h1 := parseIn_rel (df := df) h
    unfold evaluateIn evaluate
    cases hp : parseExpression s df with
    | success m =>
      rw [hp] at h1
      cases hn : parseIn loc s df with
      | success n =>
        rw [hn] at h1
        cases h1 with
        | success h1 =>
          simp only [Outcome.andThen]
          rw [evalBoolN_sure n (h1.2 trivial), h1.1]
      | failure e => rw [hn] at h1; cases h1
      | syntaxError => rw [hn] at h1; cases h1
    | failure e => rw [hp] at h1; generalize parseIn loc s df = x at h1; cases h1; rfl
    | syntaxError => rw [hp] at h1; generalize parseIn loc s df = x at h1; cases h1; rfl
  · have h1 := parseIn_rel (df := none) h
    unfold evaluateArithIn evaluateArith
    cases hp : parseExpression s none with
    | success m =>
      rw [hp] at h1
      cases hn : parseIn loc s none with
      | success n =>
        rw [hn] at h1
        cases h1 with
        | success h1 =>
          simp only [Outcome.andThen]
          rw [h1.1]
      | failure e => rw [hn] at h1; cases h1
      | syntaxError => rw [hn] at h1; cases h1
    | failure e => rw [hp] at h1; generalize parseIn loc s none = x at h1; cases h1; rfl
    | syntaxError => rw [hp] at h1; generalize parseIn loc s none = x at h1; cases h1; rfl

/-! ## CONTAINS in lower case -/

theorem evalItemsN_base {env : Env} {d : Data} : (ns : List NNode) → (∀ m ∈ NNode.eraseAll ns, m.isArithBase = true) →
    evalItemsN env d ns = evalItems env d (NNode.eraseAll ns)
  | [], _ => by rw [evalItemsN, NNode.eraseAll, evalItems]
  | n :: ns, h => by
    rw [NNode.eraseAll] at h
    rw [evalItemsN, NNode.eraseAll, evalItems, evalItemsN_base ns fun m hm => h m (.tail _ hm), itemValue, itemValue,
      if_pos (h _ (.head _)), if_pos (h _ (.head _))]

theorem nodes_base : (es : List Arith) → ∀ m ∈ Arith.nodes es, m.isArithBase = true
  | [], m, h => by simp [Arith.nodes] at h
  | e :: es, m, h => by
    rw [Arith.nodes] at h
    rcases List.mem_cons.1 h with h | h
    · subst h; exact node_base e
    · exact nodes_base es m h

theorem mapTok_array {φ : Token → Token} {t : Tree} {f : Token} {o : ArrOp} {es : List Tree}
    (h : t.mapTok φ = .array f o es) : ∃ f' es', t = .array f' o es' := by
  cases t <;> simp only [Tree.mapTok] at h <;> first | (injection h with h1 h2 h3; subst h2; exact ⟨_, _, rfl⟩) | cases h

/-- The node of a CONTAINS test whose keyword is not found. -/
theorem contains_lost {f : JStr} {o : ArrOp} {items : List Arith} {w : JStr} {ts : List JStr}
    (h : Writes s (.contains f o items)) (hc : Cut s (f :: w :: ts)) (hw : w ∈ dottedKeywords)
    (hm : ∀ t ∈ ts, t ∉ dottedFunctions) (df : Option JStr) :
    ∃ ns, parseIn .turkish s df = .success (.array f o false ns) ∧ NNode.eraseAll ns = Arith.nodes items := by
  have hl := (C49_cut s _).1 hc
  have hr : (lex s).map canon = (Cond.contains f o items).tree.toks :=
    lex_renders (cond_valid _ h.valid) (by rw [cond_toks]; exact h.renders)
  have hp : ∃ f' es', parseTokens (lex s) = some (.array f' o es') := by
    have h1 := parse_toks (cond_WF _ h.valid h.grouped 0 (.inl (by decide)) (.inl (by decide)))
    rw [← hr, parseTokens_map canon_kind canon_eof] at h1
    cases e : parseTokens (lex s) with
    | none => rw [e] at h1; cases h1
    | some t =>
      rw [e, Option.map_some, Option.some.injEq, Cond.tree] at h1
      obtain ⟨f', es', h2⟩ := mapTok_array h1
      exact ⟨f', es', by rw [h2]⟩
  obtain ⟨f', es', hp⟩ := hp
  -- the first two tokens
  obtain ⟨u, v, us, e1, e2, e3, e4⟩ : ∃ u v us, lex s = u :: v :: us ∧ u.text = f ∧ v.text = w ∧ us.map Token.text = ts := by
    cases e : lex s with
    | nil => rw [e] at hl; cases hl
    | cons u r =>
      cases r with
      | nil => rw [e] at hl; cases hl
      | cons v us =>
        rw [e] at hl
        simp only [List.map_cons, List.cons.injEq] at hl
        exact ⟨u, v, us, rfl, hl.1, hl.2.1, hl.2.2⟩
  have hk : u.kind = .field ∧ v.kind = o.kind := by
    have h1 := parseTokens_kinds hp
    have h2 : (lex s).map Token.kind = (Cond.contains f o items).tree.toks.map Token.kind := by
      rw [← hr, List.map_map]; rfl
    rw [Cond.tree, Tree.toks, e1] at h2
    simp only [List.map_cons, List.cons.injEq] at h2
    rw [Tree.kinds, e1] at h1
    simp only [kindsOf, List.map_cons, List.cons.injEq] at h1
    exact ⟨h2.1, h1.2.1.symm⟩
  have hf : (lex s).filter (fun k => k.kind.isName) = v :: us.filter fun k => k.kind.isName := by
    rw [e1, List.filter_cons_of_neg (by rw [hk.1]; decide), List.filter_cons_of_pos (by rw [hk.2]; exact arrKind_isName o)]
  have hfine : ∀ t ∈ lex s, t.kind.isName = true → KnownName .turkish False t.kind t.text := by
    intro t ht hn
    refine fine_function (tokens_table s t ht hn) ?_
    rw [e1] at ht
    rcases List.mem_cons.1 ht with ht | ht
    · subst ht; rw [hk.1] at hn; cases hn
    · rcases List.mem_cons.1 ht with ht | ht
      · subst ht; rw [e3]
        exact (by decide +kernel : ∀ w ∈ dottedKeywords, w ∉ dottedFunctions) w hw
      · exact hm _ (e4 ▸ List.mem_map_of_mem ht)
  have hrel := parseIn_rel (df := df) hfine
  rw [h.node df] at hrel
  have hlost : arrayKnown .turkish o w = false := by
    refine lost_keyword ?_ hw
    have := tokens_table s v (by rw [e1]; simp) (by rw [hk.2]; exact arrKind_isName o)
    rwa [e3, hk.2] at this
  cases hq : parseIn .turkish s df with
  | failure e => rw [hq] at hrel; cases hrel
  | syntaxError => rw [hq] at hrel; cases hrel
  | success n =>
    rw [hq] at hrel
    cases hrel with
    | success hrel =>
      unfold parseIn at hq
      rw [treeOf_some hp, hf] at hq
      simp only [dress, List.head?_cons, Option.map_some, Option.getD_some, e3] at hq
      generalize hy : dressAll es' (v :: us.filter fun k => k.kind.isName).tail = y at hq
      cases hz : (do
          let s ← walkN .turkish df (.array f' o w y.1) ⟨[], none, 0⟩
          exitParseN s) with
      | error e => rw [hz] at hq; cases hq
      | ok m =>
        rw [hz] at hq
        injection hq with hq
        subst hq
        obtain ⟨s1, h1, h2⟩ := bind_ok_inv hz
        rw [walkN] at h1
        obtain ⟨s2, h3, h4⟩ := bind_ok_inv h1
        rw [exitArrayN] at h4
        obtain ⟨⟨ns, st⟩, h5, h6⟩ := bind_ok_inv h4
        injection h6 with h6
        subst h6
        simp only [exitParseN, hlost] at h2
        injection h2 with h2
        subst h2
        have he := hrel.1
        rw [NNode.erase, Cond.node] at he
        injection he with he1 he2 he3
        rw [he1]
        exact ⟨ns, rfl, he3⟩

end BoolParser
