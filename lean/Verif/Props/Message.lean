import Verif.Lemmas.Message
import Verif.Lemmas.AnyText
import Verif.Props.AnyText
import Verif.Props.NullArgs
import Verif.Props.Ask
/-!
# Which field a DataNotFoundException names (C97), and which names any text asks for (C96)
-/

namespace BoolParser
open Spec

/-! ## Names of nodes -/

theorem unary_rel {G : JStr → Prop} {dt : DataType} {v : Value} (h : dt ≠ .boolean → v ≠ .null → G v.text) (b : Bool) (k : JStr)
    (hk : k ∈ (Node.unary dt v).names b) : G k := by
  simp only [Node.names] at hk
  split at hk
  · cases hk
  · rename_i hc
    have hd : dt ≠ .boolean := by intro hd; subst hd; simp at hc
    have hn : v ≠ .null := by intro hn; subst hn; cases hk
    have ht : toText v = .ok v.text := by cases v <;> first | rfl | exact absurd rfl hn
    rw [ht] at hk
    simp only [Except.toOption, Option.toList_some, List.mem_singleton] at hk
    subst hk
    exact h hd hn

mutual
theorem names_rel {G : JStr → Prop} : {n n' : Node} → NodeRel (VB G G) n n' → ∀ b, ∀ k ∈ n.names b, G k
  | _, _, .cmp o _ hl hr, b, k, hk => by
    simp only [Node.names, List.mem_append] at hk
    exact hk.elim (names_rel hl _ k) (names_rel hr _ k)
  | _, _, .range h _ _, b, k, hk => by
    simp only [Node.names, List.mem_singleton] at hk
    subst hk; exact h
  | _, _, .inn h hs, b, k, hk => by
    simp only [Node.names, List.mem_cons] at hk
    rcases hk with rfl | hk
    · exact h
    · exact namesAll_rel hs k hk
  | _, _, .array _ h hs, b, k, hk => by
    simp only [Node.names, List.mem_cons] at hk
    rcases hk with rfl | hk
    · exact h
    · exact namesAll_rel hs k hk
  | _, _, .unary h, b, k, hk => unary_rel h b k hk
  | _, _, .and_ hl hr, b, k, hk => by
    simp only [Node.names, List.mem_append] at hk
    exact hk.elim (names_rel hl _ k) (names_rel hr _ k)
  | _, _, .or_ hl hr, b, k, hk => by
    simp only [Node.names, List.mem_append] at hk
    exact hk.elim (names_rel hl _ k) (names_rel hr _ k)
  | _, _, .not_ h, b, k, hk => by
    simp only [Node.names] at hk
    exact names_rel h _ k hk
  | _, _, .word h, b, k, hk => unary_rel h false k hk
  | _, _, .nofield, b, k, hk => by cases b <;> simp [Node.names] at hk
  | _, _, .field h, b, k, hk => by
    cases b <;> simp only [Node.names, Bool.false_eq_true, if_false, if_true, Option.toList_some, List.mem_singleton,
      List.not_mem_nil] at hk
    subst hk; exact h
  | _, _, .arith _ hl hr, b, k, hk => by
    cases b <;> simp only [Node.names, Bool.false_eq_true, if_false, if_true, List.mem_append, List.not_mem_nil] at hk
    exact hk.elim (names_rel hl _ k) (names_rel hr _ k)
  | _, _, .neg h, b, k, hk => by
    cases b <;> simp only [Node.names, Bool.false_eq_true, if_false, if_true, List.not_mem_nil] at hk
    exact names_rel h _ k hk
  | _, _, .func _ hs, b, k, hk => by
    cases b <;> simp only [Node.names, Bool.false_eq_true, if_false, if_true, List.not_mem_nil] at hk
    exact namesAll_rel hs k hk
theorem namesAll_rel {G : JStr → Prop} : {ns ns' : List Node} → NodesRel (VB G G) ns ns' → ∀ k ∈ namesAll ns, G k
  | _, _, .nil, k, hk => by cases hk
  | _, _, .cons h hs, k, hk => by
    simp only [namesAll, List.mem_append] at hk
    exact hk.elim (names_rel h _ k) (namesAll_rel hs k)
end

theorem names_mentioned {s : JStr} {ts : List JStr} (h : Cut s ts) {df : Option JStr} {n : Node}
    (hp : parseAny s df = .ok n) (b : Bool) : ∀ k ∈ n.names b, Mentions ts df k := by
  have h1 : ∀ {t : Token}, t ∈ lex s → TokSelf (VB (Mentions ts df) (Mentions ts df)) t := fun {t} ht => {
    field := fun _ => mentions_lexeme h df ht
    lit := fun v hv hb hn => mentions_value h df ht (.inl rfl) hv hb hn
    word := fun v hv hb hn => mentions_value h df ht (.inl rfl) hv hb hn
    lone := fun v hv hn => mentions_value h df ht (.inr rfl) hv (by decide) hn
    fn := fun _ _ => trivial
    op := fun _ _ => trivial }
  have h2 : TokSelf (VB (Mentions ts df) (Mentions ts df)) eofTok := {
    field := by intro h; cases h
    lit := fun v hv _ _ => end_value (.inl rfl) hv ts df
    word := fun v hv _ _ => end_value (.inl rfl) hv ts df
    lone := fun v hv _ => end_value (.inr rfl) hv ts df
    fn := fun _ _ => trivial
    op := fun _ _ => trivial }
  rcases parseAny_self (V := VB (Mentions ts df) (Mentions ts df)) ⟨fun _ => trivial, fun f hf => .inr (.inl hf)⟩ h2
    (fun t => h1) hp with hr | ⟨v, v', rfl, _, hr⟩
  · exact names_rel hr b
  · exact unary_rel (fun _ hn => hr hn) b

/-- **C96**, any text: the map is asked only for names that the text mentions or for the default field. -/
theorem C96_mentioned (S : UserMap) (env : Env) {s : JStr} {ts : List JStr} (hc : Cut s ts) (df : Option JStr) :
    (∀ k ∈ (evaluateAsk S env s df).1, Mentions ts df k) ∧ (∀ k ∈ (evaluateArithAsk S env s).1, Mentions ts none k) := by
  unfold evaluateAsk evaluateArithAsk
  constructor
  · cases e : parseAny s df with
    | error x => exact fun k hk => by cases hk
    | ok n =>
      obtain ⟨l, h1, h2⟩ := evalBoolA_from S env n []
      intro k hk
      have hk : k ∈ (evalBoolA S env n []).1 := hk
      rw [h1, List.nil_append] at hk
      exact names_mentioned hc e false k (h2.subset hk)
  · cases e : parseAny s none with
    | error x => exact fun k hk => by cases hk
    | ok n =>
      obtain ⟨l, h1, h2⟩ := evalArithA_from S env n []
      intro k hk
      have hk : k ∈ (evalArithA S env n []).1 := hk
      rw [h1, List.nil_append] at hk
      exact names_mentioned hc e true k (h2.subset hk)

-- a text outside the grammar: nothing but its names is asked for
example (S : UserMap) (env : Env) : ∀ k ∈ (evaluateAsk S env j!"(a = 5" none).1, Mentions [j!"(", ['a'], j!"=", ['5']] none k :=
  (C96_mentioned S env (cut_of (by krfl)) none).1

/-! ## The message -/

theorem say_voices (S : UserMap) (env : Env) (s : JStr) (df : Option JStr) :
    Voices S (evaluateSay S env s df) (evaluateAsk S env s df) := by
  unfold evaluateSay evaluateAsk
  cases e : parseAny s df with
  | ok n => exact evalBoolM_voices env n []
  | error x =>
    refine ⟨rfl, rfl, fun c hc => ?_⟩
    cases hc
    exact ⟨fun he => by subst he; exact absurd e (parseOpt_calm s df), fun _ => rfl⟩

theorem arithSay_voices (S : UserMap) (env : Env) (s : JStr) :
    Voices S (evaluateArithSay S env s) (evaluateArithAsk S env s) := by
  unfold evaluateArithSay evaluateArithAsk
  cases e : parseAny s none with
  | ok n => exact evalArithM_voices env n []
  | error x =>
    refine ⟨rfl, rfl, fun c hc => ?_⟩
    cases hc
    exact ⟨fun he => by subst he; exact absurd e (parseOpt_calm s none), fun _ => rfl⟩

/-- **C97**, the model with messages is the model without, so every other theorem is about it too. -/
theorem C97_same (S : UserMap) (env : Env) (s : JStr) (df : Option JStr) :
    (evaluateSay S env s df).1 = (evaluateAsk S env s df).1 ∧
    unsaid (evaluateSay S env s df).2 = (evaluateAsk S env s df).2 ∧
    (evaluateArithSay S env s).1 = (evaluateArithAsk S env s).1 ∧
    unsaid (evaluateArithSay S env s).2 = (evaluateArithAsk S env s).2 :=
  ⟨(say_voices S env s df).1, (say_voices S env s df).2.1, (arithSay_voices S env s).1, (arithSay_voices S env s).2.1⟩

/-- **C97**, any text and any map: the key in the message is the name asked for last, and the map had nothing for it. Only
a `DataNotFoundException` has one. -/
theorem C97_last_asked (S : UserMap) (env : Env) (s : JStr) (df : Option JStr) {c : Complaint} {k : JStr}
    (hc : (evaluateSay S env s df).2 = .error c ∨ (evaluateArithSay S env s).2 = .error c) (hk : c.key = some k) :
    c.exn = .dataNotFound ∧ ∃ g, S g k = .ok none ∧
      ((evaluateSay S env s df).1 = g ++ [k] ∨ (evaluateArithSay S env s).1 = g ++ [k]) := by
  have key : ∀ {α : Type} {x : List JStr × Except Complaint α} {y : List JStr × Result α}, Voices S x y → x.2 = .error c →
      c.exn = .dataNotFound ∧ ∃ g, S g k = .ok none ∧ x.1 = g ++ [k] := by
    intro α x y hv he
    obtain ⟨h1, h2⟩ := hv.2.2 c he
    by_cases hn : c.exn = .dataNotFound
    · obtain ⟨g, k', hg, h | h⟩ := h1 hn
      · rw [hk] at h
        obtain ⟨hs, e⟩ := h
        injection e with e
        subst e
        exact ⟨hn, g, hs, hg⟩
      · rw [hk] at h; cases h.2
    · rw [h2 hn] at hk; cases hk
  rcases hc with hc | hc
  · obtain ⟨h1, g, h2, h3⟩ := key (say_voices S env s df) hc
    exact ⟨h1, g, h2, .inl h3⟩
  · obtain ⟨h1, g, h2, h3⟩ := key (arithSay_voices S env s) hc
    exact ⟨h1, g, h2, .inr h3⟩

theorem absent_iff {d : Data} {f : JStr} : Absent d f ↔ getValueFromMap f d = .ok none := by
  refine ⟨fun h => ?_, absent_of⟩
  rcases h with ⟨ks, hk, hm⟩ | ⟨rfl, h⟩
  · exact (lookup_none hk d).2 hm
  · rw [lookup_empty]
    cases e : mapGet d [] with
    | none => rfl
    | some v =>
      have := h v ((mapGet_iff _ _ _).1 e)
      subst this; rfl

theorem plain_calm (d : Data) (g : List JStr) (k : JStr) : plainMap d g k ≠ .error .dataNotFound :=
  (calm_lookup (some k) d).out

theorem named_of {α : Type} {d : Data} {x : List JStr × Except Complaint α} {y : List JStr × Result α}
    (hv : Voices (plainMap d) x y) (he : y.2 = .error .dataNotFound) :
    ∃ k g, x.2 = .error ⟨.dataNotFound, some k⟩ ∧ x.1 = g ++ [k] ∧ Absent d k := by
  obtain ⟨h1, h2, h3⟩ := hv
  rw [he] at h2
  cases e : x.2 with
  | ok a => rw [e] at h2; cases h2
  | error c =>
    rw [e] at h2
    injection h2 with h2
    obtain ⟨g, k, hg, h | h⟩ := (h3 c e).1 h2
    · obtain ⟨x, key⟩ := c
      simp only at h2 h
      rw [h2, h.2]
      exact ⟨k, g, rfl, hg, absent_iff.2 h.1⟩
    · exact absurd h.1 (plain_calm d g k)

/-- **C97.** Whatever the text: if the evaluation fails because data were not found, the message says which name has no
value in the data, and the text mentions it (or it is the default field). -/
theorem C97_names_missing {s : JStr} {ts : List JStr} (hc : Cut s ts) {env : Env} {d : Data} {df : Option JStr}
    (he : evaluateAny env s d df = .error .dataNotFound) :
    ∃ k c, (evaluateSay (plainMap d) env s df).2 = .error c ∧ c.exn = .dataNotFound ∧
      c.message = some (j!"Data not found for the key " ++ k) ∧ Absent d k ∧ Mentions ts df k := by
  have hv := say_voices (plainMap d) env s df
  rw [← (C96_plain env s d df).1] at he
  obtain ⟨k, g, h1, h2, h3⟩ := named_of hv he
  refine ⟨k, _, h1, rfl, rfl, h3, (C96_mentioned (plainMap d) env hc df).1 k ?_⟩
  rw [← hv.1, h2]; simp

/-- **C97**, arithmetic evaluator. -/
theorem C97_names_missing_arith {s : JStr} {ts : List JStr} (hc : Cut s ts) {env : Env} {d : Data}
    (he : evaluateArithAny env s d = .error .dataNotFound) :
    ∃ k c, (evaluateArithSay (plainMap d) env s).2 = .error c ∧ c.exn = .dataNotFound ∧
      c.message = some (j!"Data not found for the key " ++ k) ∧ Absent d k ∧ Mentions ts none k := by
  have hv := arithSay_voices (plainMap d) env s
  rw [← (C96_plain env s d none).2] at he
  obtain ⟨k, g, h1, h2, h3⟩ := named_of hv he
  refine ⟨k, _, h1, rfl, rfl, h3, (C96_mentioned (plainMap d) env hc none).2 k ?_⟩
  rw [← hv.1, h2]; simp

theorem halts_first {α : Type} {d : Data} {m : Ask α} (hm : Halts (plainMap d) m) {g : List JStr} {k : JStr}
    (hk : (m []).1 = g ++ [k]) : ∀ f ∈ g, ¬ Absent d f := by
  intro f hf ha
  obtain ⟨g1, g2, rfl⟩ := List.append_of_mem hf
  have := ((hm []).2 g1 f List.nil_prefix (by rw [hk]; exact ⟨g2 ++ [k], by simp⟩) (absent_iff.1 ha)).1
  rw [hk] at this
  have := congrArg List.length this
  simp only [List.length_append, List.length_cons, List.length_nil] at this
  omega

/-- **C97**, the first one: in a single test that is no null check, the field named is the first in reading order that
has no value. -/
theorem C97_first {s : JStr} {c : Cond} (h : Writes s c) (hs : c.single = true) (hn : c.isNullTest = false) {env : Env}
    {d : Data} {df : Option JStr} (hdf : DefaultOk df) {x : Complaint} {k : JStr}
    (he : (evaluateSay (plainMap d) env s df).2 = .error x) (hk : x.key = some k) :
    ∃ before after, c.fields df = before ++ k :: after ∧ Absent d k ∧ ∀ f ∈ before, ¬ Absent d f := by
  have hv := say_voices (plainMap d) env s df
  obtain ⟨h1, h2⟩ := hv.2.2 x he
  have hx : x.exn = .dataNotFound := by
    by_contra hx; rw [h2 hx] at hk; cases hk
  obtain ⟨g, k', hg, h3 | h3⟩ := h1 hx
  · rw [hk] at h3
    obtain ⟨ha, e⟩ := h3
    injection e with e
    subst e
    rw [hv.1] at hg
    obtain ⟨t, ht⟩ := (C96_single h hs (plainMap d) env hdf).1
    rw [hg] at ht
    rw [asked_cond h] at hg
    exact ⟨g, t, by rw [← ht]; simp, absent_iff.2 ha, halts_first (single_halts env hdf c h.valid _ h.readable hs hn) hg⟩
  · exact absurd h3.1 (plain_calm d g k')

/-- **C97**, the first one, in calculations. -/
theorem C97_first_arith {s : JStr} {e : Arith} (h : WritesArith s e) {env : Env} {d : Data} {x : Complaint} {k : JStr}
    (he : (evaluateArithSay (plainMap d) env s).2 = .error x) (hk : x.key = some k) :
    ∃ before after, e.fields = before ++ k :: after ∧ Absent d k ∧ ∀ f ∈ before, ¬ Absent d f := by
  have hv := arithSay_voices (plainMap d) env s
  obtain ⟨h1, h2⟩ := hv.2.2 x he
  have hx : x.exn = .dataNotFound := by
    by_contra hx; rw [h2 hx] at hk; cases hk
  obtain ⟨g, k', hg, h3 | h3⟩ := h1 hx
  · rw [hk] at h3
    obtain ⟨ha, e'⟩ := h3
    injection e' with e'
    subst e'
    rw [hv.1] at hg
    obtain ⟨t, ht⟩ := (C96_arith h (plainMap d) env).1
    rw [hg] at ht
    rw [evaluateArithAsk, ask_node (h.node none)] at hg
    exact ⟨g, t, by rw [← ht]; simp, absent_iff.2 ha, halts_first (evalArithA_halts env _) hg⟩
  · exact absurd h3.1 (plain_calm d g k')

/-- **C97**, conditions with AND and OR: the field named is one of those written (or the default field). -/
theorem C97_written {s : JStr} {c : Cond} (h : Writes s c) {env : Env} {d : Data} {df : Option JStr} {x : Complaint} {k : JStr}
    (he : (evaluateSay (plainMap d) env s df).2 = .error x) (hk : x.key = some k) : k ∈ c.fields df ∧ Absent d k := by
  have hv := say_voices (plainMap d) env s df
  obtain ⟨h1, h2⟩ := hv.2.2 x he
  have hx : x.exn = .dataNotFound := by
    by_contra hx; rw [h2 hx] at hk; cases hk
  obtain ⟨g, k', hg, h3 | h3⟩ := h1 hx
  · rw [hk] at h3
    obtain ⟨ha, e⟩ := h3
    injection e with e
    subst e
    rw [hv.1] at hg
    refine ⟨(C96_mentions h (plainMap d) env df).subset ?_, absent_iff.2 ha⟩
    rw [hg]; simp
  · exact absurd h3.1 (plain_calm d g k')

/-- **C97**, supplying the fields one after the other: if every evaluation names a missing field and the field is supplied
before the next, there are at most as many such rounds as there are
fields in the condition. -/
theorem C97_rounds {s : JStr} {c : Cond} (h : Writes s c) {env : Env} {df : Option JStr} {n : Nat} {ds : Fin n → Data}
    {ks : Fin n → JStr} (he : ∀ i, ∃ x, (evaluateSay (plainMap (ds i)) env s df).2 = .error x ∧ x.key = some (ks i))
    (hs : ∀ i j, i < j → ¬ Absent (ds j) (ks i)) : n ≤ (c.fields df).dedup.length := by
  have hw : ∀ i, ks i ∈ c.fields df ∧ Absent (ds i) (ks i) := fun i => by
    obtain ⟨x, h1, h2⟩ := he i
    exact C97_written h h1 h2
  have inj : Function.Injective ks := by
    intro i j hij
    by_contra hne
    rcases lt_or_gt_of_ne hne with hl | hl
    · exact hs i j hl (hij ▸ (hw j).2)
    · exact hs j i hl (hij ▸ (hw i).2)
  have hd : (List.ofFn ks).Nodup := List.nodup_ofFn.2 inj
  have hsub : List.ofFn ks ⊆ (c.fields df).dedup := by
    intro k hk
    obtain ⟨i, rfl⟩ := (List.mem_ofFn' ks k).1 hk
    exact List.mem_dedup.2 (hw i).1
  have := (hd.subperm hsub).length_le
  simpa using this

/-- **C97**, not so for the right operand of a comparison: the failure names nothing. -/
theorem C97_right_unnamed (env : Env) : (evaluateSay (plainMap [(['b'], .int 1)]) env j!"b = a" none).2 =
    .error ⟨.noSuchElement, none⟩ := by krfl

/-! ## Cases -/

example (env : Env) : (evaluateSay (plainMap [(['a'], .int 1), (['b'], .int 1)]) env j!"a = b AND NOT (c IN (d, 1))" none).2 =
    .error (notFound (some ['c'])) := by krfl

example (env : Env) : ∃ k c, (evaluateSay (plainMap []) env j!"(a = 5" none).2 = .error c ∧ c.exn = .dataNotFound ∧
    c.message = some (j!"Data not found for the key " ++ k) ∧ Absent [] k ∧ Mentions [j!"(", ['a'], j!"=", ['5']] none k :=
  C97_names_missing (cut_of (by krfl)) (by krfl)

example (env : Env) : ∃ before after, [['a'], ['b'], ['c']] = before ++ ['b'] :: after ∧
    Absent [(['a'], .int 1)] ['b'] ∧ ∀ f ∈ before, ¬ Absent [(['a'], .int 1)] f :=
  C97_first (s := j!"a IN (b, c)") (c := .isIn ['a'] false [.field ['b'], .field ['c']]) (writes_of (by krfl)) rfl rfl
    (env := env) (df := none) (by intro f h; cases h) (x := notFound (some ['b'])) (by krfl) rfl

example (env : Env) : ∃ before after, [['a'], ['b']] = before ++ ['b'] :: after ∧
    Absent [(['a'], .int 1)] ['b'] ∧ ∀ f ∈ before, ¬ Absent [(['a'], .int 1)] f :=
  C97_first_arith arithDemo_writes (env := env) (x := notFound (some ['b'])) (by krfl) rfl

example (env : Env) : 2 ≤ [['a'], ['b'], ['c'], ['d']].dedup.length :=
  C97_rounds (n := 2) askDemo_writes (env := env) (df := none)
    (ds := fun i => if i = 0 then [] else [(['a'], .int 1), (['b'], .int 1)])
    (ks := fun i => if i = 0 then ['a'] else ['c'])
    (fun i => by
      match i with
      | 0 => exact ⟨notFound (some ['a']), by krfl, rfl⟩
      | 1 => exact ⟨notFound (some ['c']), by krfl, rfl⟩)
    (fun i j hij => by
      obtain ⟨rfl, rfl⟩ : i = 0 ∧ j = 1 := by omega
      intro h
      have := absent_iff.1 h
      cases this)

end BoolParser
