import Verif.Lemmas.Least
import Verif.Props.Understood
/-!
# Trees with the fewest parentheses, through the API (C37)

C37 is false of the code through the API. Here is exactly for which trees it holds.
-/

namespace BoolParser
open Spec

/-- **C37**: `least` respects the ladder, writes the same tree, and no way to write that tree has fewer words. -/
theorem C37_fewest (e : Arith) : e.strip.least.Grouped ∧ e.strip.least.strip = e.strip ∧
    ∀ g : Arith, g.Grouped → g.strip = e.strip → e.strip.least.lexemes.length ≤ g.lexemes.length :=
  ⟨least_grouped _, by rw [least_strip, strip_idem], fun g hg h => by rw [← h]; exact fewest g hg⟩

/-- **C37**: the same for conditions. -/
theorem C37_fewest_conditions (c : Cond) : c.strip.least.Grouped ∧ c.strip.least.strip = c.strip ∧
    ∀ g : Cond, g.Grouped → g.strip = c.strip → c.strip.least.lexemes.length ≤ g.lexemes.length :=
  ⟨cleast_grouped _, by rw [cleast_strip, cstrip_idem], fun g hg h => by rw [← h]; exact cfewest g hg⟩

-- `((a)) - ((b - c))` needs one pair of parentheses
example : (Arith.op .sub (.group (.group (.field ['a']))) (.group (.group (.op .sub (.field ['b'])
    (.field ['c']))))).strip.least.lexemes = [j!"a", j!"-", j!"(", j!"b", j!"-", j!"c", j!")"] := by krfl

/-- **C37**, exactly: a calculation, calls and minus signs included, printed with only the parentheses the ladder
requires, gives back its tree if and only if the tree is one of those the parser gets right (`Arith.readable`). -/
theorem C37_least {e : Arith} {s : JStr} (hv : e.Valid) (hn : e.items.Nodup) (hb : e.bare = false)
    (hs : Renders e.least.lexemes s) (df : Option JStr) :
    parseExpression s df = .success e.node ↔ e.readable false = true := by
  rw [← least_readable e false, ← least_node e]
  exact C85_arithmetic (least_valid e hv) (least_grouped e) (by rw [least_items]; exact hn) (by rw [least_bare]; exact hb) hs df

/-- **C37**: those have the values of their trees, repeated names and literals or not. -/
theorem C37_least_value {e : Arith} {s : JStr} (hv : e.Valid) (hr : e.readable false = true) (ha : e.isAtom = false)
    (hs : Renders e.least.lexemes s) (env : Env) (d : Data) (df : Option JStr) :
    parseExpression s df = .success e.node ∧ evaluateArith env s d = .ofResult (e.value env d) := by
  have h : WritesArith s e.least := ⟨least_valid e hv, least_grouped e, by rw [least_readable]; exact hr,
    by rw [least_isAtom]; exact ha, hs⟩
  exact ⟨by rw [h.node, least_node], by rw [h.eval, least_value]⟩

/-- **C37**, exactly, for conditions. -/
theorem C37_least_conditions {c : Cond} {s : JStr} {df : Option JStr} (hv : c.Valid) (hd : c.Distinct df)
    (hs : Renders c.least.lexemes s) :
    parseExpression s df = .success (c.least.node df) ↔ c.readable .nothing = true := by
  rw [← cleast_readable c .nothing]
  exact C85_conditions (cleast_valid c hv) (cleast_grouped c) (cleast_distinct hd) hs

/-- **C37**: those mean what their trees mean. -/
theorem C37_least_meaning {c : Cond} {s : JStr} (hv : c.Valid) (hr : c.readable .nothing = true)
    (hs : Renders c.least.lexemes s) (env : Env) (d : Data) {df : Option JStr} (hdf : DefaultOk df) :
    evaluate env s d df = .ofResult (c.meaning env d df) := by
  have h : Writes s c.least := ⟨cleast_valid c hv, cleast_grouped c, by rw [cleast_readable]; exact hr, hs⟩
  rw [h.eval env d hdf, cleast_meaning]

-- `-(a + 2) * min(b, 3)`: the parentheses are required, and the tree is understood
example (env : Env) (d : Data) : evaluateArith env j!"-(a + 2) * min(b, 3)" d = .ofResult
    ((Arith.op .mul (.neg (.op .add (.field ['a']) (.lit (.int ['2'])))) (.call .min [.field ['b'], .lit (.int ['3'])])).value
      env d) :=
  (C37_least_value (e := .op .mul (.neg (.op .add (.field ['a']) (.lit (.int ['2']))))
    (.call .min [.field ['b'], .lit (.int ['3'])])) (by decide) (by decide) rfl (renders_of (by krfl)) env d none).2

-- `(a + b) * -c` is the tree it prints, and is not understood
example : parseExpression j!"(a + b) * -c" none ≠
    .success (Arith.op .mul (.op .add (.field ['a']) (.field ['b'])) (.neg (.field ['c']))).node := by
  intro h
  have := (C37_least (e := .op .mul (.op .add (.field ['a']) (.field ['b'])) (.neg (.field ['c']))) (by decide)
    (by simp [Arith.items]) rfl (renders_of (by krfl)) none).mp h
  exact absurd this (by decide)

-- `NOT (a > 5) AND (b < 3 OR c IN (1, 2))` with the parentheses it needs
example (env : Env) (d : Data) : evaluate env j!"NOT (a > 5) AND (b < 3 OR c IN (1, 2))" d none = .ofResult
    ((Cond.conn true (.not (.cmp .gt (.field ['a']) (.lit (.int ['5'])))) (.conn false
      (.cmp .lt (.field ['b']) (.lit (.int ['3']))) (.isIn ['c'] false [.lit (.int ['1']), .lit (.int ['2'])]))).meaning
      env d none) :=
  C37_least_meaning (c := .conn true (.not (.cmp .gt (.field ['a']) (.lit (.int ['5'])))) (.conn false
      (.cmp .lt (.field ['b']) (.lit (.int ['3']))) (.isIn ['c'] false [.lit (.int ['1']), .lit (.int ['2'])])))
    (by decide) (by decide) (renders_of (by krfl)) env d (by intro f h; cases h)

example : parseExpression j!"a + 1 > b" none = .success ((Cond.cmp .gt (.op .add (.field ['a']) (.lit (.int ['1'])))
    (.field ['b'])).least.node none) → False := by
  intro h
  have : (parseExpression j!"a + 1 > b" none = .success (.arith .add (.field (some ['a'])) (.cmp (.unary .integer (.int 1))
    (.field (some ['b'])) .gt .string))) := by krfl
  rw [this] at h
  cases h

end BoolParser
