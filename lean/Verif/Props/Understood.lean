import Verif.Lemmas.Respell
import Verif.Props.Pipeline
/-!
# C85 Exactly which expressions the library understands

`Cond.readable` and `Arith.readable` (`Verif/Spec/Expr.lean`) say which expressions the library builds the right node
for. Here: it builds the right node for no others, as soon as no name and no literal occurs twice (`Cond.Distinct`,
`Verif/Spec/Atoms.lean`). The node an expression stands for is `Cond.node` (`Verif/Spec/Nodes.lean`).
-/

namespace BoolParser
open Spec

theorem solid_empty (sk : JStr → Bool) : Solid sk LState.init.stack := by
  intro n hn; cases hn

theorem init_fresh (sk : JStr → Bool) (R : List Item) : ∀ n ∈ LState.init.stack, ¬ HasItem sk R n := by
  intro n hn; cases hn

/-- The names that do not count for `c`. -/
def unused (df : Option JStr) (c : Cond) (f : JStr) : Bool := f == j!"null" || (c.usesDefault && df == some f)

theorem distinct_clear {df : Option JStr} {c : Cond} (h : c.Distinct df) :
    Clear (unused df c) c.items ∧ Skips df (unused df c) c := by
  refine ⟨?_, by simp [unused], ?_⟩
  · intro f hf
    unfold unused
    have h1 : (f == j!"null") = false := by
      rw [beq_eq_false_iff_ne]; rintro rfl; exact h.null hf
    rw [h1, Bool.false_or]
    cases hu : c.usesDefault with
    | false => rfl
    | true =>
      rw [Bool.true_and, beq_eq_false_iff_ne]
      rintro rfl; exact h.dflt hu f rfl hf
  · intro hu f hf
    simp [unused, hu, hf]

/-- **C85.** A condition in which no name and no literal occurs twice is turned into its own node exactly if it is
`readable`. -/
theorem C85_conditions {c : Cond} {s : JStr} {df : Option JStr} (hv : c.Valid) (hg : c.Grouped) (hd : c.Distinct df)
    (hs : Renders c.lexemes s) : parseExpression s df = .success (c.node df) ↔ c.readable .nothing = true := by
  constructor
  · intro h
    rw [← cond_toks] at hs
    have ho := renders_standard (cond_valid c hv) hs df
    rw [h] at ho
    generalize hp : parseExpression (spaced (c.tree.toks.map Token.text)) df = p at ho
    cases ho with
    | success ht =>
      rename_i n'
      rcases ht with ht | ⟨v, v', h1, -⟩
      · rw [cond_spell df c hv ht] at hp
        obtain ⟨st, h1, h2⟩ := standard_walk (cond_valid c hv) (cond_WF c hv hg 0 (.inl (by decide)) (.inl (by decide)))
          (written_spaced _) hp
        obtain ⟨hc, hk⟩ := distinct_clear hd
        obtain ⟨-, m, st', e1, -⟩ := cond_flow df c hv hc hk h1
        exact cond_exact df c hv hg hc hk hd.once (left := .nothing) (solid_empty _) (init_fresh _ _) rfl h1
          (exitParse_top h2 e1)
      · have := cond_not_leaf df c
        rw [h1] at this; cases this
  · intro hr
    rw [parse_cond hv hg hr hs, cond_node df c hv]

/-- Walking an expression that is more than an operand in parentheses leaves a node. -/
theorem walk_some {df : Option JStr} : (e : Arith) → e.Valid → e.bare = false → ∀ {s s'}, walk df e.tree s = .ok s' →
    ∃ n st, s'.stack = n :: st
  | .field f, _, h, _, _, _ => by cases h
  | .lit l, _, h, _, _, _ => by cases h
  | .group e, hv, h, s, s', hw => by
    rw [Arith.tree, walk] at hw
    rw [Arith.Valid] at hv
    exact walk_some e hv h hw
  | .neg e, hv, _, s, s', hw => by
    rw [Arith.Valid] at hv
    rw [Arith.tree, walk] at hw
    obtain ⟨s1, -, h2⟩ := bind_ok_inv hw
    rcases exitNeg_inv hv h2 with ⟨n, st, -, -, e⟩ | ⟨-, -, e⟩
    · exact ⟨_, _, e⟩
    · exact ⟨_, _, e⟩
  | .op o l r, _, _, s, s', hw => by
    rw [Arith.tree, walk] at hw
    obtain ⟨s1, -, h2⟩ := bind_ok_inv hw
    obtain ⟨s2, -, h4⟩ := bind_ok_inv h2
    obtain ⟨n, st, -, e⟩ := exitMapped_inv h4
    exact ⟨_, _, e⟩
  | .call f args, _, _, s, s', hw => by
    rw [Arith.tree, walk] at hw
    obtain ⟨s1, -, h2⟩ := bind_ok_inv hw
    obtain ⟨n, st, -, e⟩ := exitMapped_inv h2
    exact ⟨_, _, e⟩

theorem bare_leaf : (e : Arith) → e.bare = false → e.node.isLeaf = false
  | .field _, h => by cases h
  | .lit _, h => by cases h
  | .group e, h => by rw [Arith.node]; exact bare_leaf e h
  | .op _ _ _, _ => rfl
  | .neg _, _ => rfl
  | .call _ _, _ => rfl

theorem bare_atom {e : Arith} (h : e.bare = false) : e.isAtom = false := by
  cases e <;> first | rfl | cases h

/-- **C85**, arithmetic: an expression in which no name and no literal occurs twice, and that is more than a single
operand in parentheses, is turned into its own node exactly if it is `readable`. -/
theorem C85_arithmetic {e : Arith} {s : JStr} (hv : e.Valid) (hg : e.Grouped) (hn : e.items.Nodup) (hb : e.bare = false)
    (hs : Renders e.lexemes s) (df : Option JStr) :
    parseExpression s df = .success e.node ↔ e.readable false = true := by
  constructor
  · intro h
    rw [← arith_toks] at hs
    have ho := renders_standard (arith_valid e hv) hs df
    rw [h] at ho
    generalize hp : parseExpression (spaced (e.tree.toks.map Token.text)) df = p at ho
    cases ho with
    | success ht =>
      rcases ht with ht | ⟨v, v', h1, -⟩
      · rw [arith_spell e ht] at hp
        obtain ⟨st, h1, h2⟩ := standard_walk (arith_valid e hv) (arith_WF e hv hg 0 (.inl (Nat.zero_le _)))
          (written_spaced _) hp
        obtain ⟨m, st', e1⟩ := walk_some e hv hb h1
        exact walk_exact (sk := fun _ => false) df e (bare_atom hb) hv (fun _ _ => rfl) hn (solid_empty _)
          (init_fresh _ _) h1 (exitParse_top h2 e1)
      · have := bare_leaf e hb
        rw [h1] at this; cases this
  · intro hr
    exact WritesArith.node ⟨hv, hg, hr, bare_atom hb, hs⟩ df

/-- What happens to the others: they are refused, or read as something else. -/
theorem C85_others {c : Cond} {s : JStr} {df : Option JStr} (hv : c.Valid) (hg : c.Grouped) (hd : c.Distinct df)
    (hs : Renders c.lexemes s) (hr : c.readable .nothing = false) :
    (∃ e, parseExpression s df = .failure e) ∨ ∃ n, parseExpression s df = .success n ∧ n ≠ c.node df := by
  have hno : parseExpression s df ≠ .success (c.node df) := fun h => by
    rw [C85_conditions hv hg hd hs, hr] at h; cases h
  have hs' := hs
  rw [← cond_toks] at hs'
  have ho := renders_standard (cond_valid c hv) hs' df
  cases hp : parseExpression s df with
  | success n => exact .inr ⟨n, rfl, fun e => hno (by rw [hp, e])⟩
  | failure e => exact .inl ⟨e, rfl⟩
  | syntaxError =>
    exfalso
    rw [hp] at ho
    generalize hp' : parseExpression (spaced (c.tree.toks.map Token.text)) df = p at ho
    cases ho
    rw [parseExpression, lex_written (fun t ht => (cond_valid c hv t ht).1) (written_spaced _),
      parse_toks (cond_WF c hv hg 0 (.inl (by decide)) (.inl (by decide)))] at hp'
    simp only at hp'
    cases hl : listen df c.tree with
    | error e => rw [hl] at hp'; cases hp'
    | ok m => rw [hl] at hp'; cases hp'

/-! ### The same, construct by construct -/

theorem simpleArgs_all : (es : List Arith) → (Arith.simpleArgs es = true ↔ ∀ e ∈ es, e.simpleArg = true)
  | [] => by simp [Arith.simpleArgs]
  | e :: es => by
    rw [Arith.simpleArgs, Bool.and_eq_true, List.forall_mem_cons]
    exact and_congr_right (fun _ => simpleArgs_all es)

/-- **C85**, calls: every argument must be a field, a literal, one operator between two of these, or a call of such
arguments. -/
theorem C85_call {f : FuncType} {args : List Arith} {s : JStr} (hv : (Arith.call f args).Valid)
    (hg : (Arith.call f args).Grouped) (hn : (Arith.call f args).items.Nodup)
    (hs : Renders (Arith.call f args).lexemes s) (df : Option JStr) :
    parseExpression s df = .success (.func f (Arith.nodes args)) ↔ ∀ e ∈ args, e.simpleArg = true := by
  have h := C85_arithmetic hv hg hn rfl hs df
  rw [Arith.node, Arith.readable] at h
  rw [h, simpleArgs_all]

/-- **C85**, minus: the operand must be a field or literal, or an operator expression that is understood itself; minus
before a call is never understood. -/
theorem C85_minus {e : Arith} {s : JStr} (hv : e.Valid) (hg : (Arith.neg e).Grouped) (hn : e.items.Nodup)
    (hs : Renders (Arith.neg e).lexemes s) (df : Option JStr) :
    parseExpression s df = .success (.neg e.node) ↔ e.isAtom = true ∨ (e.isOperation = true ∧ e.readable false = true) := by
  have h := C85_arithmetic (e := .neg e) (by rw [Arith.Valid]; exact hv) hg (by rw [Arith.items]; exact hn) rfl hs df
  rw [Arith.node, Arith.readable] at h
  rw [h]
  cases ha : e.isAtom with
  | true => simp
  | false => simp [and_comm]

/-- **C85**, operators: if both operands are compound, both must be understood, the right one as it stands after the
left one, and all function arguments in the right one must be fields or literals. -/
theorem C85_operator {o : ArithOp} {l r : Arith} {s : JStr} (hv : (Arith.op o l r).Valid) (hg : (Arith.op o l r).Grouped)
    (hn : (Arith.op o l r).items.Nodup) (hl : l.isAtom = false) (hr : r.isAtom = false)
    (hs : Renders (Arith.op o l r).lexemes s) (df : Option JStr) :
    parseExpression s df = .success (.arith o l.node r.node) ↔
      l.readable false = true ∧ r.readable l.isOperation = true ∧ r.tidy = true := by
  have h := C85_arithmetic hv hg hn rfl hs df
  rw [Arith.node, Arith.readable, hl, hr] at h
  rw [h]
  simp

/-- **C85**, comparisons: of two compound sides, both must be calls with such arguments as in `C85_call`. -/
theorem C85_comparison {o : CmpOp} {l r : Arith} {s : JStr} {df : Option JStr} (hv : (Cond.cmp o l r).Valid)
    (hg : (Cond.cmp o l r).Grouped) (hd : (Cond.cmp o l r).Distinct df) (hl : l.isAtom = false) (hr : r.isAtom = false)
    (hs : Renders (Cond.cmp o l r).lexemes s) :
    parseExpression s df = .success (.cmp l.node r.node o r.firstType) ↔
      ∃ f g as bs, l = .call f as ∧ r = .call g bs ∧ Arith.simpleArgs as = true ∧ Arith.simpleArgs bs = true := by
  have h := C85_conditions hv hg hd hs
  rw [Cond.node, Cond.readable, hl, hr] at h
  simp only [Bool.false_and, Bool.false_eq_true, if_false] at h
  rw [h]
  constructor
  · intro h
    cases l with
    | call f as =>
      cases r with
      | call g bs =>
        simp only [Cond.isCall, Bool.true_and, Bool.and_eq_true, Arith.readable] at h
        exact ⟨f, g, as, bs, rfl, rfl, h.1, h.2⟩
      | _ => simp [Cond.isCall] at h
    | _ => simp [Cond.isCall] at h
  · rintro ⟨f, g, as, bs, rfl, rfl, h1, h2⟩
    simp [Cond.isCall, Arith.readable, h1, h2]

/-- **C85**, AND and OR: the left operand must be understood, the right one as it stands after the left one, and it
must contain no call or list with compound items and no comparison of two calls. -/
theorem C85_connective {b : Bool} {l r : Cond} {s : JStr} {df : Option JStr} (hv : (Cond.conn b l r).Valid)
    (hg : (Cond.conn b l r).Grouped) (hd : (Cond.conn b l r).Distinct df) (hs : Renders (Cond.conn b l r).lexemes s) :
    parseExpression s df = .success (if b then .and_ (l.node df) (r.node df) else .or_ (l.node df) (r.node df)) ↔
      l.readable .nothing = true ∧ r.readable l.asLeft = true ∧ r.tidy = true := by
  have h := C85_conditions hv hg hd hs
  rw [Cond.node, Cond.readable] at h
  rw [h]
  simp

/-- **C85**: directly after an IN, range or CONTAINS test a comparison of two operands is never understood. -/
theorem C85_after_membership {b : Bool} {l : Cond} {o : CmpOp} {x y : Arith} {s : JStr} {df : Option JStr}
    (hv : (Cond.conn b l (.cmp o x y)).Valid) (hg : (Cond.conn b l (.cmp o x y)).Grouped)
    (hd : (Cond.conn b l (.cmp o x y)).Distinct df) (hs : Renders (Cond.conn b l (.cmp o x y)).lexemes s)
    (hl : l.asLeft = .membership) (hx : x.isAtom = true) (hy : y.isAtom = true) :
    (∃ e, parseExpression s df = .failure e) ∨
      ∃ n, parseExpression s df = .success n ∧ n ≠ (Cond.conn b l (.cmp o x y)).node df :=
  C85_others hv hg hd hs (by simp [Cond.readable, hl, hx, hy])

/-- **C85**, a single operand in any number of parentheses: only fields and texts come out as what they are; of any
other literal the text is taken. -/
theorem C85_single {e : Arith} {s : JStr} (hv : e.Valid) (hb : e.bare = true) (hs : Written e.lexemes s) (df : Option JStr) :
    parseExpression s df = .success e.node ↔ (∃ f, e.node = .field (some f)) ∨ ∃ t, e.node = .unary .string (.str t) := by
  have hg : e.Grouped := by
    clear hv hs
    induction e using Arith.rec (motive_2 := fun _ => True) with
    | field f => trivial
    | lit l => trivial
    | group e ih => rw [Arith.Grouped]; exact ih hb
    | op o l r _ _ => cases hb
    | neg e _ => cases hb
    | call f args _ => cases hb
    | nil => trivial
    | cons _ _ _ _ => trivial
  have key : ∀ e : Arith, e.Valid → e.bare = true → ∃ t, walk df e.tree LState.init = .ok ⟨[], some t, 1⟩ ∧
      ((∃ f, t = fieldTok f ∧ e.node = .field (some f)) ∨ ∃ l : Lit, l.Valid ∧ t = l.tok ∧ e.node = .unary l.type l.value) := by
    intro e hv hb
    induction e using Arith.rec (motive_2 := fun _ => True) with
    | field f => exact ⟨fieldTok f, by rw [Arith.tree, walk]; rfl, .inl ⟨f, rfl, rfl⟩⟩
    | lit l =>
      rw [Arith.Valid] at hv
      exact ⟨l.tok, by rw [Arith.tree, walk]; rfl, .inr ⟨l, hv, rfl, rfl⟩⟩
    | group e ih =>
      rw [Arith.Valid] at hv
      obtain ⟨t, h1, h2⟩ := ih hv hb
      exact ⟨t, by rw [Arith.tree, walk]; exact h1, by rw [Arith.node]; exact h2⟩
    | op o l r _ _ => cases hb
    | neg e _ => cases hb
    | call f args _ => cases hb
    | nil => trivial
    | cons _ _ _ _ => trivial
  obtain ⟨t, h1, h2⟩ := key e hv hb
  rw [← arith_toks] at hs
  rw [parseExpression, lex_written (fun t ht => (arith_valid e hv t ht).1) hs,
    parse_toks (arith_WF e hv hg 0 (.inl (Nat.zero_le _)))]
  simp only
  rw [listen, h1, ok_bind]
  rcases h2 with ⟨f, rfl, h2⟩ | ⟨l, hl, rfl, h2⟩
  · rw [h2]
    constructor
    · intro _; exact .inl ⟨f, rfl⟩
    · intro _; rfl
  · have hk : l.tok.kind ≠ .field := by
      have := l.tok_kind
      intro e; rw [e] at this; cases this
    have he : exitParse ⟨[], some l.tok, 1⟩ = (do
        let v ← convertValue l.tok.text .string
        pure (.unary .string v)) := by
      rw [exitParse]
      simp only [if_true]
      rw [if_neg hk]
    rw [he, h2]
    constructor
    · intro h
      right
      cases hc : convertValue l.tok.text .string with
      | error x => rw [hc] at h; cases h
      | ok v =>
        rw [hc, ok_bind] at h
        have h' : (Outcome.success (.unary .string v) : Outcome Node) = .success (.unary l.type l.value) := h
        injection h' with h'; injection h' with h3 h4
        cases l with
        | str q t => exact ⟨t, rfl⟩
        | int ds => rw [Lit.type] at h3; split at h3 <;> cases h3
        | _ => cases h3
    · rintro (⟨f, h⟩ | ⟨x, h⟩)
      · cases h
      · injection h with h3 h4
        have := l.convert hl
        have ht : tokType l.tok = .string := by
          cases l with
          | str q t => rfl
          | int ds => rw [Lit.type] at h3; split at h3 <;> cases h3
          | _ => cases h3
        rw [ht] at this
        rw [this, ok_bind, h3]; rfl

/-! ### Cases -/

/-- An understood condition of fields. -/
def fine : Cond := .conn true (.group (.conn false (.cmp .gt (.field j!"x") (.lit (.int j!"1")))
  (.cmp .lt (.field j!"y") (.call .min [.field j!"e", .field j!"z"])))) (.isIn j!"t" false [.field j!"k", .field j!"m"])

example : parseExpression j!"(x > 1 OR y < min(e, z)) && t IN (k, m)" none = .success (.and_
    (.or_ (.cmp (.field (some j!"x")) (.unary .integer (.int 1)) .gt .integer)
      (.cmp (.field (some j!"y")) (.func .min [.field (some j!"e"), .field (some j!"z")]) .lt .string))
    (.inn j!"t" [.field (some j!"k"), .field (some j!"m")])) :=
  (C85_conditions (c := fine) (df := none) (by decide +kernel) (by decide +kernel)
    ⟨by simp [fine, Cond.items, Arith.items, Arith.itemsAll], by simp [fine, Cond.items, Arith.items, Arith.itemsAll],
      by simp⟩ (renders_of (by krfl))).2 (by krfl)

/-- The other order is not: the comparisons come after the IN test. -/
example : (∃ e, parseExpression j!"t IN (k, m) AND (x > 1)" none = .failure e) ∨ ∃ n,
    parseExpression j!"t IN (k, m) AND (x > 1)" none = .success n ∧ n ≠ .and_ (.inn j!"t" [.field (some j!"k"), .field (some j!"m")])
      (.cmp (.field (some j!"x")) (.unary .integer (.int 1)) .gt .integer) :=
  C85_others (c := .conn true (.isIn j!"t" false [.field j!"k", .field j!"m"]) (.group (.cmp .gt (.field j!"x") (.lit (.int j!"1")))))
    (df := none) (by decide +kernel) (by decide +kernel)
    ⟨by simp [Cond.items, Arith.items, Arith.itemsAll], by simp [Cond.items, Arith.items, Arith.itemsAll], by simp⟩
    (renders_of (by krfl)) (by krfl)

/-- `a * b` may be an argument, `a * b + c` may not. -/
example (df : Option JStr) :
    parseExpression j!"max(a * b, c)" df = .success (.func .max [.arith .mul (.field (some j!"a")) (.field (some j!"b")), .field (some j!"c")]) ∧
    parseExpression j!"max(a * b + c, d)" df ≠ .success (.func .max [.arith .add (.arith .mul (.field (some j!"a"))
      (.field (some j!"b"))) (.field (some j!"c")), .field (some j!"d")]) := by
  constructor
  · refine (C85_call (args := [.op .mul (.field j!"a") (.field j!"b"), .field j!"c"]) (by decide +kernel) (by decide +kernel)
      (by simp [Arith.items, Arith.itemsAll]) (renders_of (by krfl)) df).2 ?_
    simp [Arith.simpleArg, Arith.isAtom]
  · intro h
    have := (C85_call (args := [.op .add (.op .mul (.field j!"a") (.field j!"b")) (.field j!"c"), .field j!"d"])
      (by decide +kernel) (by decide +kernel) (by simp [Arith.items, Arith.itemsAll]) (renders_of (by krfl)) df).1 h
    simp [Arith.simpleArg, Arith.isAtom] at this

/-- Minus before a call is not understood, before an operator expression it is. -/
example (df : Option JStr) : parseExpression j!"-(min(a, b))" df ≠ .success (.neg (.func .min [.field (some j!"a"), .field (some j!"b")])) ∧
    parseExpression j!"-(a ^ b)" df = .success (.neg (.arith .exp (.field (some j!"a")) (.field (some j!"b")))) := by
  constructor
  · intro h
    have := (C85_minus (e := .group (.call .min [.field j!"a", .field j!"b"])) (by decide +kernel) (by decide +kernel)
      (by simp [Arith.items, Arith.itemsAll]) (renders_of (by krfl)) df).1 h
    simp [Arith.isAtom, Arith.isOperation] at this
  · refine (C85_minus (e := .group (.op .exp (.field j!"a") (.field j!"b"))) (by decide +kernel) (by decide +kernel)
      (by simp [Arith.items, Arith.itemsAll]) (renders_of (by krfl)) df).2 (.inr ⟨rfl, by krfl⟩)

/-- `a + b` on the left, `-c` on the right is not understood; `c - 1` is. -/
example (df : Option JStr) :
    parseExpression j!"(a + b) * (c - d)" df = .success (.arith .mul (.arith .add (.field (some j!"a")) (.field (some j!"b")))
      (.arith .sub (.field (some j!"c")) (.field (some j!"d")))) ∧
    parseExpression j!"(a + b) * -c" df ≠ .success (.arith .mul (.arith .add (.field (some j!"a")) (.field (some j!"b")))
      (.neg (.field (some j!"c")))) := by
  constructor
  · exact (C85_operator (l := .group (.op .add (.field j!"a") (.field j!"b"))) (r := .group (.op .sub (.field j!"c") (.field j!"d")))
      (by decide +kernel) (by decide +kernel) (by simp [Arith.items]) rfl rfl (renders_of (by krfl)) df).2
      ⟨by krfl, by krfl, by krfl⟩
  · intro h
    have := (C85_operator (l := .group (.op .add (.field j!"a") (.field j!"b"))) (r := .neg (.field j!"c"))
      (by decide +kernel) (by decide +kernel) (by simp [Arith.items]) rfl rfl (renders_of (by krfl)) df).1 h
    simp [Arith.readable, Arith.isOperation, Arith.isAtom] at this

/-- Two compound sides of a comparison: two calls are understood, two sums are not. -/
example : parseExpression j!"min(a, b) < max(c, d)" none =
      .success (.cmp (.func .min [.field (some j!"a"), .field (some j!"b")]) (.func .max [.field (some j!"c"), .field (some j!"d")]) .lt .string) ∧
    parseExpression j!"(a + b) < (c + d)" none ≠
      .success (.cmp (.arith .add (.field (some j!"a")) (.field (some j!"b"))) (.arith .add (.field (some j!"c")) (.field (some j!"d"))) .lt .string) := by
  constructor
  · exact (C85_comparison (l := .call .min [.field j!"a", .field j!"b"]) (r := .call .max [.field j!"c", .field j!"d"]) (df := none)
      (by decide +kernel) (by decide +kernel) ⟨by simp [Cond.items, Arith.items, Arith.itemsAll],
        by simp [Cond.items, Arith.items, Arith.itemsAll], by simp⟩ rfl rfl (renders_of (by krfl))).2
      ⟨_, _, _, _, rfl, rfl, by krfl, by krfl⟩
  · intro h
    obtain ⟨f, g, as, bs, h, -⟩ := (C85_comparison (l := .group (.op .add (.field j!"a") (.field j!"b"))) (r := .group (.op .add (.field j!"c") (.field j!"d")))
      (df := none) (by decide +kernel) (by decide +kernel) ⟨by simp [Cond.items, Arith.items, Arith.itemsAll],
        by simp [Cond.items, Arith.items, Arith.itemsAll], by simp⟩ rfl rfl (renders_of (by krfl))).1 h
    cases h

/-- `x = min(a + b, c)` is understood left of AND, not right of it. -/
example : ∃ n, parseExpression j!"x = min(a + b, c) AND y = z" none = .success n ∧
    n = .and_ (.cmp (.field (some j!"x")) (.func .min [.arith .add (.field (some j!"a")) (.field (some j!"b")), .field (some j!"c")]) .eq .string)
      (.cmp (.field (some j!"y")) (.field (some j!"z")) .eq .string) ∧
    parseExpression j!"y = z AND x = min(a + b, c)" none ≠ .success (.and_ (.cmp (.field (some j!"y")) (.field (some j!"z")) .eq .string)
      (.cmp (.field (some j!"x")) (.func .min [.arith .add (.field (some j!"a")) (.field (some j!"b")), .field (some j!"c")]) .eq .string)) := by
  refine ⟨_, ?_, rfl, ?_⟩
  · exact (C85_connective (b := true) (l := .cmp .eq (.field j!"x") (.call .min [.op .add (.field j!"a") (.field j!"b"), .field j!"c"]))
      (r := .cmp .eq (.field j!"y") (.field j!"z")) (df := none) (by decide +kernel) (by decide +kernel)
      ⟨by simp [Cond.items, Arith.items, Arith.itemsAll], by simp [Cond.items, Arith.items, Arith.itemsAll], by simp⟩
      (renders_of (by krfl))).2 ⟨by krfl, by krfl, by krfl⟩
  · intro h
    have := (C85_connective (b := true) (r := .cmp .eq (.field j!"x") (.call .min [.op .add (.field j!"a") (.field j!"b"), .field j!"c"]))
      (l := .cmp .eq (.field j!"y") (.field j!"z")) (df := none) (by decide +kernel) (by decide +kernel)
      ⟨by simp [Cond.items, Arith.items, Arith.itemsAll], by simp [Cond.items, Arith.items, Arith.itemsAll], by simp⟩
      (renders_of (by krfl))).1 h
    simp [Cond.tidy, Arith.tidy, Arith.isAtom] at this

example : (∃ e, parseExpression j!"a 1 TO 3 OR b = c" none = .failure e) ∨
    ∃ n, parseExpression j!"a 1 TO 3 OR b = c" none = .success n ∧ n ≠ .or_ (.range j!"a" (.int 1) (.int 3) .integer .integer)
      (.cmp (.field (some j!"b")) (.field (some j!"c")) .eq .string) :=
  C85_after_membership (b := false) (l := .range j!"a" (.int j!"1") (.int j!"3")) (x := .field j!"b") (y := .field j!"c") (df := none)
    (by decide +kernel) (by decide +kernel) ⟨by simp [Cond.items, Arith.items], by simp [Cond.items, Arith.items], by simp⟩
    (renders_of (by krfl)) rfl rfl rfl

/-- `((5))` gives the text `5`, not the number. -/
example (df : Option JStr) : parseExpression j!" ( ( a ) )" df = .success (.field (some j!"a")) ∧
    parseExpression j!" ( ( 5 ) )" df ≠ .success (.unary .integer (.int 5)) := by
  constructor
  · exact (C85_single (e := .group (.group (.field j!"a"))) (by decide +kernel) rfl (written_spaced _) df).2 (.inl ⟨_, rfl⟩)
  · intro h
    rcases (C85_single (e := .group (.group (.lit (.int j!"5")))) (by decide +kernel) rfl (written_spaced _) df).1 h with ⟨f, h⟩ | ⟨t, h⟩ <;> cases h

end BoolParser
