import Verif.Lemmas.Nested
import Verif.Props.Message
/-!
# Nested maps the user implements (C98)

`W h m k` is what `get(k)` of the map `m` gives after the calls `h` (a value, nothing or an exception); `root` is the data
argument. `evaluateMaps W root env s df` is the list of all calls of `get`, in order, with the outcome.
-/

namespace BoolParser
open Spec

variable {M : Type}

/-- **C98**: with ordinary maps the outcome is that of `evaluate`, for any text. -/
theorem C98_plain (env : Env) (s : JStr) (d : Data) (df : Option JStr) :
    (evaluateMaps plainMaps d env s df).2 = evaluateAny env s d df ∧
    (evaluateArithMaps plainMaps d env s).2 = evaluateArithAny env s d := by
  unfold evaluateMaps evaluateArithMaps
  rw [through_plain]
  exact C96_plain env s d df

/-- **C98**: a field has the value `v` exactly if following its keys, each in the map that the call before returned, leads
to `v`; and exactly those calls are made. -/
theorem C98_route (W : Maps M) (root : M) (env : Env) {s f : JStr} (hf : IsName f) (hs : Written [f] s) {ks : List JStr}
    (hk : Names f ks) (qs : List (M × JStr)) (v : Value) :
    evaluateArithMaps W root env s = (qs, .ok v) ↔ Route W [] root ks qs v := by
  have h1 : evaluateArithAsk (throughMaps W root) env s = evalArithA (throughMaps W root) env (.field (some f)) [] := by
    rw [evaluateArithAsk, ask_node (bare_parse hf hs none)]
  unfold evaluateArithMaps
  rw [h1, evalArithA]
  have h2 : throughMaps W root [] f = (walkMaps W ks root []).2 := by
    unfold throughMaps getThrough
    rw [splitKey_names hk]; rfl
  have h3 : visited W root [] [f] = (walkMaps W ks root []).1 := by
    rw [visited, visited, getThrough, splitKey_names hk]
  have hr := walk_route (W := W) ks root [] v qs
  simp only [List.nil_append, exists_eq_left'] at hr
  rw [← hr]
  have h4 : askRequired (throughMaps W root) (some f) [] =
      match throughMaps W root [] f with
      | .ok (some v) => ([f], .ok v)
      | .ok none => ([f], .error .dataNotFound)
      | .error e => ([f], .error e) := by
    rw [askRequired, ask_bind]
    rw [show askField (throughMaps W root) (some f) [] = ([f], throughMaps W root [] f) from rfl]
    cases throughMaps W root [] f with
    | error e => rfl
    | ok o => cases o <;> rfl
  rw [h4, h2]
  generalize hx : walkMaps W ks root [] = x at *
  obtain ⟨x1, x2⟩ := x
  cases x2 with
  | error e => simp
  | ok o =>
    cases o with
    | none => simp
    | some w => simp [h3]

/-- **C98**: a call goes to the data argument, or to the map that the call just before returned; no other object of the
user is touched. -/
theorem C98_calls (W : Maps M) (root : M) (env : Env) (s : JStr) (df : Option JStr) {g : List (M × JStr)} {m : M} {k : JStr}
    (h : g ++ [(m, k)] <+: (evaluateMaps W root env s df).1 ∨ g ++ [(m, k)] <+: (evaluateArithMaps W root env s).1) :
    m = root ∨ ∃ g' m0 k0 v, g = g' ++ [(m0, k0)] ∧ W g' m0 k0 = .ok (some ⟨v, some m⟩) := by
  have key : ∀ names, g ++ [(m, k)] <+: visited W root [] names →
      m = root ∨ ∃ g' m0 k0 v, g = g' ++ [(m0, k0)] ∧ W g' m0 k0 = .ok (some ⟨v, some m⟩) := by
    intro names hp
    obtain ⟨a, n, b, h1, h2, h3⟩ := visited_call names [] List.nil_prefix hp
    obtain ⟨_, h4 | ⟨g', m0, k0, v, h4, h5, h6⟩⟩ := walk_call (splitKey n) root _ h2 h3
    · exact .inl h4.2
    · exact .inr ⟨g', m0, k0, v, h5, h6⟩
  exact h.elim (key _) (key _)

/-- **C98**, conditions: every key asked for is a part of a written field name (or of the default field). -/
theorem C98_keys {s : JStr} {c : Cond} (hw : Writes s c) (W : Maps M) (root : M) (env : Env) (df : Option JStr) {m : M} {k : JStr}
    (h : (m, k) ∈ (evaluateMaps W root env s df).1) : ∃ f ∈ c.fields df, k ∈ f.splitOn '.' := by
  obtain ⟨g, t, ht⟩ := List.append_of_mem h
  obtain ⟨a, n, b, h1, h2, h3⟩ := visited_call (W := W) (root := root) (g := g) (q := (m, k)) _ [] List.nil_prefix
    (show g ++ [(m, k)] <+: (evaluateMaps W root env s df).1 from ⟨t, by rw [ht]; simp⟩)
  refine ⟨n, (C96_mentions hw (throughMaps W root) env df).subset ?_, splitKey_splitOn (walk_call (splitKey n) root _ h2 h3).1⟩
  rw [h1]; simp

/-- **C98**, conditions: `get` is called at most once for every key of every mention of a field. -/
theorem C98_count {s : JStr} {c : Cond} (hw : Writes s c) (W : Maps M) (root : M) (env : Env) (df : Option JStr) :
    (evaluateMaps W root env s df).1.length ≤ keyCount (c.fields df) :=
  (visited_count _).trans (keyCount_sublist (C96_mentions hw (throughMaps W root) env df))

/-- **C98**, calculations: the same. -/
theorem C98_count_arith {s : JStr} {e : Arith} (hw : WritesArith s e) (W : Maps M) (root : M) (env : Env) :
    (evaluateArithMaps W root env s).1.length ≤ keyCount e.fields :=
  (visited_count _).trans (keyCount_sublist (C96_arith hw (throughMaps W root) env).1.sublist)

/-- **C98**: maps that answer the calls made alike cannot be told apart, for any text. -/
theorem C98_answers (W W' : Maps M) (root : M) (env : Env) (s : JStr) (df : Option JStr) :
    ((∀ g m k, g ++ [(m, k)] <+: (evaluateMaps W root env s df).1 → W g m k = W' g m k) →
      evaluateMaps W root env s df = evaluateMaps W' root env s df) ∧
    ((∀ g m k, g ++ [(m, k)] <+: (evaluateArithMaps W root env s).1 → W g m k = W' g m k) →
      evaluateArithMaps W root env s = evaluateArithMaps W' root env s) := by
  have more : ∀ {g names : List JStr} {k : JStr}, g ++ [k] <+: names →
      visited W root [] (g ++ [k]) <+: visited W root [] names := by
    rintro g _ k ⟨t, rfl⟩
    rw [visited_append _ (g ++ [k]) t]
    exact visited_prefix t _
  constructor
  · intro ha
    have h1 := C96_answers (throughMaps W root) (throughMaps W' root) env s df fun g k hp =>
      through_alike fun g' q hq => ha g' q.1 q.2 (hq.trans (more hp))
    unfold evaluateMaps
    rw [← h1, ← visited_alike (W := W) (W' := W') _ [] fun g q _ hp => ha g q.1 q.2 hp]
  · intro ha
    have h1 := C96_answers_arith (throughMaps W root) (throughMaps W' root) env s fun g k hp =>
      through_alike fun g' q hq => ha g' q.1 q.2 (hq.trans (more hp))
    unfold evaluateArithMaps
    rw [← h1, ← visited_alike (W := W) (W' := W') _ [] fun g q _ hp => ha g q.1 q.2 hp]

/-- **C98**: an exception of a map ends the evaluation at once and is the outcome, whatever the text, unless it is a
ClassCastException of an inner map. -/
theorem C98_throws (W : Maps M) (root : M) (env : Env) (s : JStr) (df : Option JStr) {g : List (M × JStr)} {m : M} {k : JStr}
    {e : Exn} (he : W g m k = .error e) (hc : e ≠ .classCast ∨ m = root ∧ NotInside W root) :
    (g ++ [(m, k)] <+: (evaluateMaps W root env s df).1 → evaluateMaps W root env s df = (g ++ [(m, k)], .error e)) ∧
    (g ++ [(m, k)] <+: (evaluateArithMaps W root env s).1 → evaluateArithMaps W root env s = (g ++ [(m, k)], .error e)) := by
  have key : ∀ names, g ++ [(m, k)] <+: visited W root [] names → ∃ a n, a ++ [n] <+: names ∧
      throughMaps W root a n = .error e ∧ visited W root [] (a ++ [n]) = g ++ [(m, k)] := by
    intro names hp
    obtain ⟨a, n, b, h1, h2, h3⟩ := visited_call names [] List.nil_prefix hp
    have h4 : e ≠ .classCast ∨ g = visited W root [] a := by
      rcases hc with hc | ⟨rfl, hc⟩
      · exact .inl hc
      · rcases (walk_call (splitKey n) m _ h2 h3).2 with h | ⟨g', m0, k0, v, _, _, h⟩
        · exact .inr h.1
        · exact absurd h (hc _ _ _ _)
    have h5 := walk_throws (splitKey n) root _ h2 h3 he h4
    refine ⟨a, n, ⟨b, by rw [h1]; simp⟩, ?_, ?_⟩
    · unfold throughMaps getThrough; rw [h5]
    · rw [visited_append, visited, visited, getThrough, h5]
  constructor
  · intro hp
    obtain ⟨a, n, h1, h2, h3⟩ := key _ hp
    have := (C96_throws (throughMaps W root) env s df h2).1 h1
    unfold evaluateMaps
    rw [this, ← h3]
  · intro hp
    obtain ⟨a, n, h1, h2, h3⟩ := key _ hp
    have := (C96_throws (throughMaps W root) env s df h2).2 h1
    unfold evaluateArithMaps
    rw [this, ← h3]

/-- **C98**: a ClassCastException of an inner map (a `TreeMap` whose keys are numbers, say) counts as nothing. -/
theorem C98_class_cast (W W' : Maps M) (root : M)
    (hW : ∀ h m k, W' h m k = W h m k ∨ (m ≠ root ∧ W h m k = .error .classCast ∧ W' h m k = .ok none))
    (hr : NotInside W root) (env : Env) (s : JStr) (df : Option JStr) :
    evaluateMaps W root env s df = evaluateMaps W' root env s df ∧
    evaluateArithMaps W root env s = evaluateArithMaps W' root env s := by
  obtain ⟨h1, h2⟩ := through_nothing hW hr
  unfold evaluateMaps evaluateArithMaps
  rw [h1, h2, h2]
  exact ⟨rfl, rfl⟩

/-! ## Cases -/

/-- The data argument has the map 1 for `a`; map 1 has 5 for `b` and throws for any other key, `e` for the first. -/
def nestedDemo (e : Exn) : Maps Nat := fun _ m k =>
  if m = 0 then (if k = ['a'] then .ok (some ⟨.map [], some 1⟩) else .ok none)
  else if k = ['b'] then .ok (some ⟨.int 5, none⟩) else .error e

theorem nestedDemo_notInside (e : Exn) : NotInside (nestedDemo e) 0 := by
  intro h m k v
  unfold nestedDemo
  split
  · split
    · intro h; injection h with h; injection h with h; injection h with _ h; cases h
    · intro h; cases h
  · split <;> intro h <;> cases h

example (env : Env) : evaluateMaps (nestedDemo .arithmetic) 0 env j!"a.b = 5 AND a.c = null" none =
    ([(0, ['a']), (1, ['b']), (0, ['a']), (1, ['c'])], .error .arithmetic) := by krfl

example (env : Env) : evaluateMaps (nestedDemo .classCast) 0 env j!"a.b = 5 AND a.c = null" none =
    ([(0, ['a']), (1, ['b']), (0, ['a']), (1, ['c'])], .ok true) := by krfl

example (env : Env) (s : JStr) : evaluateMaps (nestedDemo .classCast) 0 env s none =
    evaluateMaps (fun h m k => if m = 1 ∧ k ≠ ['b'] then .ok none else nestedDemo .classCast h m k) 0 env s none :=
  (C98_class_cast _ _ 0 (fun h m k => by
    by_cases hm : m = 1 ∧ k ≠ ['b']
    · exact .inr ⟨by omega, by unfold nestedDemo; rw [if_neg (by omega), if_neg hm.2], by rw [if_pos hm]⟩
    · exact .inl (by rw [if_neg hm])) (nestedDemo_notInside _) env s none).1

example : Route (nestedDemo .arithmetic) [] 0 [['a'], ['b']] [(0, ['a']), (1, ['b'])] (.int 5) :=
  .step (w := .map []) (m' := 1) rfl (.last (i := none) rfl)

example (env : Env) : evaluateArithMaps (nestedDemo .arithmetic) 0 env j!"a.b" = ([(0, ['a']), (1, ['b'])], .ok (.int 5)) :=
  (C98_route _ 0 env (f := j!"a.b") (by decide) (.cons (w := []) (r := []) rfl (.nil rfl) rfl) (ks := [['a'], ['b']])
    ⟨⟨by simp, by decide, by decide⟩, 0, by krfl⟩ _ _).2 (.step (w := .map []) (m' := 1) rfl (.last (i := none) rfl))

example (env : Env) : (evaluateMaps (nestedDemo .arithmetic) 0 env j!"a.b = a.c" none).1.length ≤ 4 :=
  C98_count (s := j!"a.b = a.c") (c := .cmp .eq (.field j!"a.b") (.field j!"a.c")) (writes_of (by krfl)) _ 0 env none

end BoolParser
