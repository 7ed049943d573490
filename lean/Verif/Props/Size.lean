import Verif.Lemmas.Size
import Verif.Lemmas.CondNode
import Verif.Props.Grammar
import Verif.Props.Recovery
/-!
# How large the node of a text can be (C95)

`nodeCount` is the number of node objects, `nodeDepth` the length of the longest path through them; the evaluators visit
nodes one inside the other, so the first bounds their work and the second their recursion.
-/

namespace BoolParser
open Spec

/-! ## Any text -/

theorem cut_length {s : JStr} {ts : List JStr} (h : Cut s ts) : (lex s).length = ts.length := by
  rw [← cut_unique h, List.length_map]

/-- Lexemes are not empty and do not overlap. -/
theorem cut_short {s : JStr} {ts : List JStr} (h : Cut s ts) : ts.length ≤ s.length := by
  induction h with
  | done => exact Nat.le_refl _
  | blank _ _ ih => exact Nat.le_succ_of_le ih
  | @token t r ts ht _ _ ih =>
    have : t ≠ [] := by
      obtain ⟨k, hv⟩ := lexeme_valid ht
      exact hv.ne
    have := List.length_pos_of_ne_nil this
    rw [List.length_append, List.length_cons]; omega
  | dropped _ _ _ _ ih => rw [List.length_append]; omega

/-- **C95.** Whatever the text, also one outside the grammar: a text of `n` lexemes is turned into at most
`(2n+1)·(n+1)` node objects. -/
theorem C95_quadratic {s : JStr} {ts : List JStr} {df : Option JStr} {n : Node} (h : Cut s ts)
    (hp : parseAny s df = .ok n) : nodeCount n ≤ (2 * ts.length + 1) * (ts.length + 1) := by
  rw [← cut_length h]
  generalize hl : (lex s).length = k
  rw [parseAny] at hp
  cases e : rParse (lex s) with
  | none => rw [e] at hp; cases hp
  | some x =>
    obtain ⟨t, m⟩ := x
    rw [e] at hp
    have h1 := rParse_weight e
    have h2 := made_le t
    have h3 : nodeCount n ≤ max t.made 1 := listenR_count df t n hp
    rw [hl] at h1
    have h4 : t.weight * (t.weight + 1) ≤ (2 * k + 1) * (2 * k + 1 + 1) := Nat.mul_le_mul h1 (Nat.succ_le_succ h1)
    have h5 : (2 * k + 1) * (2 * k + 1 + 1) = 2 * ((2 * k + 1) * (k + 1)) := by
      rw [show 2 * k + 1 + 1 = 2 * (k + 1) by omega, Nat.mul_left_comm]
    have h6 : 1 ≤ (2 * k + 1) * (k + 1) := Nat.mul_pos (by omega) (by omega)
    omega

/-- **C95**, in characters: text that a service receives cannot blow up beyond the square of its length. -/
theorem C95_characters {s : JStr} {df : Option JStr} {n : Node} (hp : parseAny s df = .ok n) :
    nodeCount n ≤ (2 * s.length + 1) * (s.length + 1) := by
  have hc := cut_lex _ s (Nat.le_refl _)
  have h := cut_short hc
  exact Nat.le_trans (C95_quadratic hc hp) (Nat.mul_le_mul (by omega) (by omega))

/-- **C95**: nor is the recursion of the evaluators deeper than that. -/
theorem C95_depth {s : JStr} {ts : List JStr} {df : Option JStr} {n : Node} (h : Cut s ts)
    (hp : parseAny s df = .ok n) : nodeDepth n ≤ (2 * ts.length + 1) * (ts.length + 1) :=
  Nat.le_trans (nodeDepth_le n) (C95_quadratic h hp)

-- `MIN ( 1 * 2 + 3 )`, 8 lexemes, is turned into MIN(((1 * 2) + 3) + 3): 8 objects
example : ∃ n, parseAny j!"MIN(1 * 2 + 3)" none = .ok n ∧ Cut j!"MIN(1 * 2 + 3)"
    [j!"MIN", j!"(", j!"1", j!"*", j!"2", j!"+", j!"3", j!")"] ∧ nodeCount n = 8 ∧ nodeDepth n = 5 :=
  ⟨.func .min [.arith .add (.arith .add (.arith .mul (.unary .integer (.int 1)) (.unary .integer (.int 2)))
    (.unary .integer (.int 3))) (.unary .integer (.int 3))], by krfl, cut_of (by krfl), by krfl, by krfl⟩

-- a text outside the grammar
example : ∃ n, parseAny j!"a = 5 6 AND (b = 7" none = .ok n ∧ parseExpression j!"a = 5 6 AND (b = 7" none = .syntaxError ∧
    nodeCount n ≤ (2 * 18 + 1) * (18 + 1) := by
  refine ⟨.cmp (.field (some j!"a")) (.unary .integer (.int 5)) .eq .integer, by krfl, by krfl, ?_⟩
  exact C95_characters (s := j!"a = 5 6 AND (b = 7") (df := none) (by krfl)

/-! ## Texts that are understood -/

mutual
theorem arith_count : (e : Arith) → nodeCount e.node ≤ e.lexemes.length
  | .field _ => Nat.le_refl _
  | .lit _ => Nat.le_refl _
  | .group e => by
    have := arith_count e
    simp only [Arith.node, Arith.lexemes, List.length_cons, List.length_append]; omega
  | .op _ l r => by
    have := arith_count l
    have := arith_count r
    simp only [Arith.node, Arith.lexemes, List.length_cons, List.length_append, nodeCount]; omega
  | .neg e => by
    have := arith_count e
    simp only [Arith.node, Arith.lexemes, List.length_cons, nodeCount]; omega
  | .call _ args => by
    have := args_count args
    simp only [Arith.node, Arith.lexemes, List.length_cons, List.length_append, nodeCount]; omega
theorem args_count : (es : List Arith) → nodeCounts (Arith.nodes es) ≤ (Arith.argLexemes es).length
  | [] => Nat.le_refl _
  | e :: es => by
    have := arith_count e
    have := more_count es
    simp only [Arith.nodes, Arith.argLexemes, List.length_append, nodeCounts]; omega
theorem more_count : (es : List Arith) → nodeCounts (Arith.nodes es) ≤ (Arith.moreLexemes es).length
  | [] => Nat.le_refl _
  | e :: es => by
    have := arith_count e
    have := more_count es
    simp only [Arith.nodes, Arith.moreLexemes, List.length_append, List.length_cons, nodeCounts]; omega
end

/-- How often the left operand of a comparison is omitted. -/
def Spec.Cond.omitted : Cond → Nat
  | .cmpD _ _ => 1
  | .not c => c.omitted
  | .group c => c.omitted
  | .conn _ l r => l.omitted + r.omitted
  | _ => 0

theorem cond_count (df : Option JStr) : (c : Cond) → nodeCount (c.node df) ≤ c.lexemes.length + c.omitted
  | .cmp _ l r => by
    have := arith_count l
    have := arith_count r
    simp only [Cond.node, Cond.lexemes, Cond.omitted, List.length_cons, List.length_append, nodeCount]; omega
  | .cmpD _ r => by
    have := arith_count r
    simp only [Cond.node, Cond.lexemes, Cond.omitted, List.length_cons, nodeCount]; omega
  | .isNull _ _ => by simp only [Cond.node, Cond.lexemes, Cond.omitted, List.length_cons, List.length_nil, nodeCount]; omega
  | .range _ _ _ => by simp only [Cond.node, Cond.lexemes, Cond.omitted, List.length_cons, List.length_nil, nodeCount]; omega
  | .isIn _ ng items => by
    have := args_count items
    cases ng
    · simp only [Cond.node, Cond.lexemes, Cond.omitted, List.length_cons, List.length_append, List.length_nil, nodeCount,
        Bool.false_eq_true, if_false]; omega
    · simp only [Cond.node, Cond.lexemes, Cond.omitted, List.length_cons, List.length_append, List.length_nil, nodeCount,
        if_true]; omega
  | .contains _ _ items => by
    have := args_count items
    simp only [Cond.node, Cond.lexemes, Cond.omitted, List.length_cons, List.length_append, nodeCount]; omega
  | .notField _ => by simp only [Cond.node, Cond.lexemes, Cond.omitted, List.length_cons, List.length_nil, nodeCount]; omega
  | .not c => by
    have := cond_count df c
    simp only [Cond.node, Cond.lexemes, Cond.omitted, List.length_cons, nodeCount]; omega
  | .group c => by
    have := cond_count df c
    simp only [Cond.node, Cond.lexemes, Cond.omitted, List.length_cons, List.length_append]; omega
  | .conn b l r => by
    have := cond_count df l
    have := cond_count df r
    cases b
    · simp only [Cond.node, Cond.lexemes, Cond.omitted, List.length_cons, List.length_append, nodeCount,
        Bool.false_eq_true, if_false]; omega
    · simp only [Cond.node, Cond.lexemes, Cond.omitted, List.length_cons, List.length_append, nodeCount, if_true]; omega

/-- **C95** for the conditions the library understands: not more node objects than lexemes, plus one for every omitted
operand. -/
theorem C95_linear {s : JStr} {c : Cond} (h : Writes s c) (df : Option JStr) :
    ∃ n, parseExpression s df = .success n ∧ nodeCount n ≤ c.lexemes.length + c.omitted :=
  ⟨_, h.node df, cond_count df c⟩

/-- **C95** for compound arithmetic. -/
theorem C95_linear_arith {s : JStr} {e : Arith} (h : WritesArith s e) (df : Option JStr) :
    ∃ n, parseExpression s df = .success n ∧ nodeCount n ≤ e.lexemes.length :=
  ⟨_, h.node df, arith_count e⟩

/-! ## The square is reached -/

/-- `MIN ( … MIN ( 1 * 2 + 3 ) … )` with `k` calls, as lexemes. -/
def Spec.nestedCalls : Nat → List JStr
  | 0 => [j!"1", j!"*", j!"2", j!"+", j!"3"]
  | k + 1 => j!"MIN" :: j!"(" :: (nestedCalls k ++ [j!")"])

/-- The tree of `1 * 2 + 3` in `k` calls. -/
def nestedTree : Nat → Tree
  | 0 => .arith .add (.arith .mul (.types ⟨.integer, j!"1"⟩ false) (.types ⟨.integer, j!"2"⟩ false))
      (.types ⟨.integer, j!"3"⟩ false)
  | k + 1 => .func .min [nestedTree k]

theorem nested_wf (k : Nat) : Tree.WF 0 (nestedTree k) = true := by
  induction k with
  | zero => rfl
  | succ k ih => simp only [nestedTree, Tree.WF, Tree.WFs, ih]; rfl

theorem nested_toks (k : Nat) : (nestedTree k).toks.map Token.text = nestedCalls k := by
  induction k with
  | zero => rfl
  | succ k ih =>
    simp only [nestedTree, Tree.toks, Tree.toksList, Tree.toksMore, List.append_nil, List.map_cons, List.map_append,
      List.map_nil, ih, nestedCalls]
    rfl

theorem nested_valid (k : Nat) : ∀ t ∈ (nestedTree k).toks, ValidTok t := by
  induction k with
  | zero =>
    have h : (nestedTree 0).toks = [⟨.integer, j!"1"⟩, ⟨.arith .mul, j!"*"⟩, ⟨.integer, j!"2"⟩, ⟨.arith .add, j!"+"⟩,
      ⟨.integer, j!"3"⟩] := rfl
    rw [h]
    intro t ht
    simp only [List.mem_cons, List.not_mem_nil, or_false] at ht
    rcases ht with rfl | rfl | rfl | rfl | rfl <;> exact valid_of_best (by krfl)
  | succ k ih =>
    have h : (nestedTree (k + 1)).toks = ⟨.fn .min, j!"MIN"⟩ :: ⟨.lparen, j!"("⟩ :: ((nestedTree k).toks ++ [⟨.rparen, j!")"⟩]) := by
      simp only [nestedTree, Tree.toks, Tree.toksList, Tree.toksMore, List.append_nil]; rfl
    rw [h]
    intro t ht
    simp only [List.mem_cons, List.mem_append, List.not_mem_nil, or_false] at ht
    rcases ht with rfl | rfl | ht | rfl
    · exact valid_of_best (by krfl)
    · exact valid_of_best (by krfl)
    · exact ih t ht
    · exact valid_of_best (by krfl)

/-- `x + 3` in `k` calls. -/
def wrapped (x : Node) : Nat → Node
  | 0 => .arith .add x (.unary .integer (.int 3))
  | k + 1 => .func .min [wrapped x k]

/-- The node of `1 * 2 + 3` in `k` calls. -/
def nestedNode : Nat → Node
  | 0 => .arith .add (.arith .mul (.unary .integer (.int 1)) (.unary .integer (.int 2))) (.unary .integer (.int 3))
  | k + 1 => wrapped (nestedNode k) (k + 1)

theorem map_nested (df : Option JStr) (x : Node) (k : Nat) : mapNode df (nestedTree k) [x] = .ok (wrapped x k, []) := by
  induction k with
  | zero => krfl
  | succ k ih => simp only [nestedTree, mapNode, mapNodes, ih, ok_bind]; rfl

theorem walk_nested (df : Option JStr) (k : Nat) : walk df (nestedTree k) .init =
    .ok ⟨[nestedNode k], some ⟨.integer, j!"3"⟩, 3⟩ := by
  induction k with
  | zero => krfl
  | succ k ih =>
    simp only [nestedTree, walk, walkAll, ih, ok_bind]
    have := map_nested df (nestedNode k) (k + 1)
    simp only [nestedTree] at this
    simp only [exitMapped, this, ok_bind]
    rfl

theorem wrapped_depth {x : Node} (hx : 1 ≤ nodeDepth x) (k : Nat) : nodeDepth (wrapped x k) = nodeDepth x + k + 1 := by
  induction k with
  | zero => simp only [wrapped, nodeDepth]; omega
  | succ k ih => simp only [wrapped, nodeDepth, nodeDepths, ih]; omega

theorem nested_depth (k : Nat) : 2 * nodeDepth (nestedNode k) = k * k + 3 * k + 6 := by
  induction k with
  | zero => rfl
  | succ k ih =>
    rw [nestedNode, wrapped_depth (by omega)]
    simp only [Nat.add_mul, Nat.mul_add, Nat.mul_one, Nat.one_mul] at *
    omega

theorem nested_length (k : Nat) : (nestedCalls k).length = 3 * k + 5 := by
  induction k with
  | zero => rfl
  | succ k ih => simp only [nestedCalls, List.length_cons, List.length_append, List.length_nil, ih]; omega

/-- **C95**: no bound better than the square holds. `1 * 2 + 3` inside `k` calls of MIN, a text of the grammar of
`3k + 5` lexemes, is turned into a node whose depth (and so the number of its objects) is `(k² + 3k + 6) / 2`. -/
theorem C95_square_reached (k : Nat) (df : Option JStr) : ∃ s n, Cut s (nestedCalls k) ∧ (nestedCalls k).length = 3 * k + 5 ∧
    parseExpression s df = .success n ∧ 2 * nodeDepth n = k * k + 3 * k + 6 ∧ nodeDepth n ≤ nodeCount n := by
  refine ⟨spaced (nestedCalls k), nestedNode k, ?_, nested_length k, ?_, nested_depth k, nodeDepth_le _⟩
  · exact cut_of (by rw [lex_written (nested_valid k) (by rw [nested_toks]; exact written_spaced _), nested_toks])
  · rw [parseExpression, lex_written (nested_valid k) (by rw [nested_toks]; exact written_spaced _), parse_toks (nested_wf k)]
    simp only [listen, walk_nested, ok_bind]
    rfl

/-- **C95**, the consequence: whatever the factor, some text of the grammar has more node objects than the factor times
its number of lexemes. -/
theorem C95_not_linear (factor : Nat) : ∃ s ts n, Cut s ts ∧ parseExpression s none = .success n ∧
    factor * ts.length < nodeCount n := by
  obtain ⟨s, n, hc, hl, hp, hd, hn⟩ := C95_square_reached (8 * factor + 8) none
  refine ⟨s, _, n, hc, hp, ?_⟩
  rw [hl]
  simp only [Nat.add_mul, Nat.mul_add, Nat.mul_one, Nat.one_mul] at *
  have h1 : 8 * factor * (8 * factor) = 64 * (factor * factor) := by
    rw [Nat.mul_mul_mul_comm]
  have h2 : factor * (3 * (8 * factor)) = 24 * (factor * factor) := by
    rw [← Nat.mul_assoc 3 8, ← Nat.mul_assoc, Nat.mul_comm factor, Nat.mul_assoc]
  omega

end BoolParser
