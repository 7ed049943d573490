import Verif.Lemmas.AskCond
import Verif.Props.Pipeline
import Verif.Props.Size
/-!
# What a map of the user is asked for (C96)

The data argument may be a map the user implements. `evaluateAsk S env s df` is the list of names the map `S` is asked
for, in order, with the outcome; `S h k` is its answer to the name `k` after the questions `h`, which may be an
exception.
-/

namespace BoolParser
open Spec

/-! ## Plain data -/

/-- **C96**: with an ordinary map the outcome is that of `evaluate`, for any text. -/
theorem C96_plain (env : Env) (s : JStr) (d : Data) (df : Option JStr) :
    (evaluateAsk (plainMap d) env s df).2 = evaluateAny env s d df ∧
    (evaluateArithAsk (plainMap d) env s).2 = evaluateArithAny env s d := by
  unfold evaluateAsk evaluateArithAsk evaluateAny evaluateArithAny
  constructor
  · cases parseAny s df with
    | error e => rfl
    | ok n => exact evalBoolA_erases env d n []
  · cases parseAny s none with
    | error e => rfl
    | ok n => exact evalArithA_erases env d n []

example (env : Env) : evaluateAsk (plainMap [(['a'], .int 1), (['b'], .int 2)]) env j!"a = 1 OR b = c" none =
    ([['a']], .ok true) := by krfl

/-! ## Any map, any text -/

/-- **C96**: if another map gives the same answers to the questions asked, its evaluation asks the same and has the same
outcome: nothing else of the map is observed. -/
theorem C96_answers (S S' : UserMap) (env : Env) (s : JStr) (df : Option JStr)
    (h : ∀ g k, g ++ [k] <+: (evaluateAsk S env s df).1 → S g k = S' g k) :
    evaluateAsk S env s df = evaluateAsk S' env s df := by
  unfold evaluateAsk at *
  cases e : parseAny s df with
  | error e => rfl
  | ok n =>
    rw [e] at h
    exact (evalBoolA_lift (alike_lifts S S') env n []).2 fun g k _ hk => h g k hk

/-- **C96**, the same for arithmetic. -/
theorem C96_answers_arith (S S' : UserMap) (env : Env) (s : JStr)
    (h : ∀ g k, g ++ [k] <+: (evaluateArithAsk S env s).1 → S g k = S' g k) :
    evaluateArithAsk S env s = evaluateArithAsk S' env s := by
  unfold evaluateArithAsk at *
  cases e : parseAny s none with
  | error e => rfl
  | ok n =>
    rw [e] at h
    exact (evalArithA_lift (alike_lifts S S') env n []).2 fun g k _ hk => h g k hk

/-- **C96**: a map that computes values when asked can be replaced by the values it gave. -/
theorem C96_snapshot (S : UserMap) (d : Data) (env : Env) (s : JStr) (df : Option JStr)
    (h : ∀ g k, g ++ [k] <+: (evaluateAsk S env s df).1 → S g k = getValueFromMap k d) :
    (evaluateAsk S env s df).2 = evaluateAny env s d df := by
  rw [C96_answers S (plainMap d) env s df h]
  exact (C96_plain env s d df).1

/-- **C96**: an exception of the map ends the evaluation at once and is the outcome; no later question is asked. -/
theorem C96_throws (S : UserMap) (env : Env) (s : JStr) (df : Option JStr) {g : List JStr} {k : JStr} {e : Exn}
    (he : S g k = .error e) :
    (g ++ [k] <+: (evaluateAsk S env s df).1 → evaluateAsk S env s df = (g ++ [k], .error e)) ∧
    (g ++ [k] <+: (evaluateArithAsk S env s).1 → evaluateArithAsk S env s = (g ++ [k], .error e)) := by
  have none : ¬ g ++ [k] <+: [] := fun h => by
    have := h.length_le
    simp only [List.length_append, List.length_cons, List.length_nil] at this; omega
  unfold evaluateAsk evaluateArithAsk
  constructor
  · cases parseAny s df with
    | error x => exact fun h => absurd h none
    | ok n => exact fun h => (evalBoolA_lift (stops_lifts S) env n []).2 g k e List.nil_prefix h he
  · cases parseAny s Option.none with
    | error x => exact fun h => absurd h none
    | ok n => exact fun h => (evalArithA_lift (stops_lifts S) env n []).2 g k e List.nil_prefix h he

/-- **C96**: whatever the text, also one outside the grammar, the number of questions is bounded by the square of the
number of lexemes. -/
theorem C96_bounded (S : UserMap) (env : Env) {s : JStr} {ts : List JStr} (hc : Cut s ts) (df : Option JStr) :
    (evaluateAsk S env s df).1.length ≤ (2 * ts.length + 1) * (ts.length + 1) ∧
    (evaluateArithAsk S env s).1.length ≤ (2 * ts.length + 1) * (ts.length + 1) := by
  unfold evaluateAsk evaluateArithAsk
  constructor
  · cases e : parseAny s df with
    | error x => exact Nat.zero_le _
    | ok n =>
      obtain ⟨l, h1, h2⟩ := evalBoolA_from S env n []
      show (evalBoolA S env n []).1.length ≤ _
      rw [h1, List.nil_append]
      exact Nat.le_trans h2.length_le (Nat.le_trans (names_count n false) (C95_quadratic hc e))
  · cases e : parseAny s none with
    | error x => exact Nat.zero_le _
    | ok n =>
      obtain ⟨l, h1, h2⟩ := evalArithA_from S env n []
      show (evalArithA S env n []).1.length ≤ _
      rw [h1, List.nil_append]
      exact Nat.le_trans h2.length_le (Nat.le_trans (names_count n true) (C95_quadratic hc e))

/-- A map that fails when it is asked for the second time. -/
def onceOnly : UserMap := fun h _ => if h = [] then .ok (some (.int 1)) else .error .arithmetic

example (env : Env) : evaluateAsk onceOnly env j!"a = 1 AND b = c" none = ([['a'], ['b']], .error .arithmetic) := by krfl
example (env : Env) : evaluateAsk onceOnly env j!"a = 1 OR b = c" none = ([['a']], .ok true) := by krfl

/-! ## Texts of the grammar -/

theorem asked_cond {s : JStr} {c : Cond} (h : Writes s c) (S : UserMap) (env : Env) (df : Option JStr) :
    evaluateAsk S env s df = evalBoolA S env (c.node df) [] := by rw [evaluateAsk, ask_node (h.node df)]

/-- **C96**: a condition asks at most once for every mention of a field, in the order in which they are written; an
omitted operand mentions the default field. -/
theorem C96_mentions {s : JStr} {c : Cond} (h : Writes s c) (S : UserMap) (env : Env) (df : Option JStr) :
    List.Sublist (evaluateAsk S env s df).1 (c.fields df) := by
  rw [asked_cond h]
  obtain ⟨l, h1, h2⟩ := cond_from S env df c []
  rw [h1, List.nil_append]; exact h2

/-- **C96**: so, if no operand is omitted, the names asked for are among the lexemes, in reading order; nothing that is
not written is asked for. -/
theorem C96_reading_order {s : JStr} {c : Cond} (h : Writes s c) (hd : c.usesDefault = false) (S : UserMap) (env : Env)
    (df : Option JStr) : List.Sublist (evaluateAsk S env s df).1 c.lexemes :=
  (C96_mentions h S env df).trans (cond_written c df hd)

/-- **C96**: a single test asks for its fields one by one from the left, and has asked for all of them if it has a
result. -/
theorem C96_single {s : JStr} {c : Cond} (h : Writes s c) (hs : c.single = true) (S : UserMap) (env : Env)
    {df : Option JStr} (hdf : DefaultOk df) :
    (evaluateAsk S env s df).1 <+: c.fields df ∧
    (∀ b, (evaluateAsk S env s df).2 = .ok b → (evaluateAsk S env s df).1 = c.fields df) := by
  rw [asked_cond h]
  obtain ⟨l, h1, h2, h3⟩ := single_all S env hdf c h.valid .nothing h.readable hs []
  rw [h1, List.nil_append]; exact ⟨h2, h3⟩

/-- **C96**: so does arithmetic. -/
theorem C96_arith {s : JStr} {e : Arith} (h : WritesArith s e) (S : UserMap) (env : Env) :
    (evaluateArithAsk S env s).1 <+: e.fields ∧
    (∀ v, (evaluateArithAsk S env s).2 = .ok v → (evaluateArithAsk S env s).1 = e.fields) := by
  rw [evaluateArithAsk, ask_node (h.node none)]
  obtain ⟨l, h1, h2, h3⟩ := all_eq (evalArithA_all S env e.node) (arith_names e) []
  show (evalArithA S env e.node []).1 <+: _ ∧ ∀ v, (evalArithA S env e.node []).2 = .ok v → (evalArithA S env e.node []).1 = _
  rw [h1, List.nil_append]; exact ⟨h2, h3⟩

/-- What is asked for, and found, when `r` is evaluated after `x`. -/
def Spec.followedBy (x r : List JStr × Result Bool) : List JStr × Result Bool := (x.1 ++ r.1, r.2)

theorem asked_after (S : UserMap) (env : Env) (n : Node) (g : List JStr) :
    evalBoolA S env n g = followedBy (g, .ok true) (evalBoolA (S.after g) env n []) := by
  have := evalBoolA_lift (shift_lifts S g) env n []
  rwa [List.append_nil] at this

/-- **C96**, AND: first what the left operand asks for; what the right operand asks for only if the left one is true. -/
theorem C96_and {l r : Cond} {sl sr s : JStr} (hl : Writes sl l) (hr : Writes sr r) (h : Writes s (.conn true l r))
    (S : UserMap) (env : Env) (df : Option JStr) :
    evaluateAsk S env s df =
      match evaluateAsk S env sl df with
      | (g, .ok true) => followedBy (g, .ok true) (evaluateAsk (S.after g) env sr df)
      | x => x := by
  rw [asked_cond h, asked_cond hl]
  simp only [Cond.node, if_true, evalBoolA, ask_bind]
  generalize evalBoolA S env (l.node df) [] = x
  obtain ⟨g, y⟩ := x
  cases y with
  | error e => rfl
  | ok b =>
    cases b with
    | false => rfl
    | true => simp only [if_true]; rw [asked_cond hr, asked_after]

/-- **C96**, OR: what the right operand asks for only if the left one is false. -/
theorem C96_or {l r : Cond} {sl sr s : JStr} (hl : Writes sl l) (hr : Writes sr r) (h : Writes s (.conn false l r))
    (S : UserMap) (env : Env) (df : Option JStr) :
    evaluateAsk S env s df =
      match evaluateAsk S env sl df with
      | (g, .ok false) => followedBy (g, .ok false) (evaluateAsk (S.after g) env sr df)
      | x => x := by
  rw [asked_cond h, asked_cond hl]
  simp only [Cond.node, Bool.false_eq_true, if_false, evalBoolA, ask_bind]
  generalize evalBoolA S env (l.node df) [] = x
  obtain ⟨g, y⟩ := x
  cases y with
  | error e => rfl
  | ok b =>
    cases b with
    | true => rfl
    | false => simp only [Bool.false_eq_true, if_false]; rw [asked_cond hr, asked_after]; rfl

/-! ## Cases -/

/-- `a = b AND NOT (c IN (d, 1))`. -/
def askDemo : Cond := .conn true (.cmp .eq (.field ['a']) (.field ['b']))
  (.not (.group (.isIn ['c'] false [.field ['d'], .lit (.int ['1'])])))

theorem askDemo_writes : Writes j!"a = b AND NOT (c IN (d, 1))" askDemo := writes_of (by krfl)

example (S : UserMap) (env : Env) :
    List.Sublist (evaluateAsk S env j!"a = b AND NOT (c IN (d, 1))" none).1 [['a'], ['b'], ['c'], ['d']] :=
  C96_mentions askDemo_writes S env none

example (S : UserMap) (env : Env) :
    List.Sublist (evaluateAsk S env j!"a = b AND NOT (c IN (d, 1))" none).1
      [['a'], j!"=", ['b'], j!"AND", j!"NOT", j!"(", ['c'], j!"IN", j!"(", ['d'], j!",", ['1'], j!")", j!")"] :=
  C96_reading_order askDemo_writes rfl S env none

-- with a map that answers 0, 1, 2, … `a = a` is false: it is asked twice
example (env : Env) : evaluateAsk (fun h _ => .ok (some (.int h.length))) env j!"a = a" none =
    ([['a'], ['a']], .ok false) := by krfl

example (S : UserMap) (env : Env) : (evaluateAsk S env j!"(a + 1) > b" none).1 <+: [['a'], ['b']] :=
  (C96_single (c := .cmp .gt (.group (.op .add (.field ['a']) (.lit (.int ['1'])))) (.field ['b'])) (writes_of (by krfl)) rfl S env
    (by intro f h; cases h)).1

example (S : UserMap) (env : Env) : (evaluateArithAsk S env j!"(a+5)*( b - 2.50 )").1 <+: [['a'], ['b']] :=
  (C96_arith arithDemo_writes S env).1

/-- **C96** outside the grammar: a mention may be asked for again. -/
theorem C96_asked_again : ∃ S, ∀ env, (evaluateArithAsk S env j!"MIN(a * b + c)").1 = [['a'], ['b'], ['c'], ['c']] :=
  ⟨fun _ _ => .ok (some (.int 1)), fun env => by krfl⟩

end BoolParser
