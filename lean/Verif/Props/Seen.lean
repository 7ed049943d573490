import Verif.Lemmas.Seen
import Verif.Props.Pipeline
/-!
# What a function sees of long arguments (C44)

C44 is false for arguments of three or more operands. Here is what the library does instead, for all argument lists made
of fields, literals, operators and parentheses.
-/

namespace BoolParser
open Spec

/-- **C44**, exactly: a call is understood as the call with the arguments `Arith.seen args` (`Spec/Seen.lean`), or refused
if there are none. -/
theorem C44_seen {f : FuncType} {args : List Arith} {s : JStr} (hv : (Arith.call f args).Valid)
    (hg : (Arith.call f args).Grouped) (hb : args.all Arith.basic = true) (hs : Renders (Arith.call f args).lexemes s)
    (env : Env) (d : Data) :
    match Arith.seen args with
    | some as => evaluateArith env s d = .ofResult (do
        let vs ← Arith.values env d as
        callFn env f (flattenItems vs))
    | none => ∃ x, evaluateArith env s d = .failure x := by
  have h := call_seen hv hg hb hs none
  rw [Arith.Valid] at hv
  cases e : Arith.seen args with
  | none =>
    rw [e] at h
    obtain ⟨x, h⟩ := h
    exact ⟨x, by rw [evaluateArith, h]; rfl⟩
  | some as =>
    rw [e] at h
    have h : parseExpression s none = .success (.func f (Arith.nodes as)) := h
    show evaluateArith env s d = _
    rw [evaluateArith, h]
    have := seen_valid e hv.2
    rw [← args_eval env d none as this, arith_nodes none as this, Outcome.andThen, evalArith]

/-- What a call with one argument sees of it. -/
theorem seen_one (o : ArithOp) (l r : Arith) : Arith.seen [.op o l r] =
    if l.isAtom && r.isAtom then some [.op o l r]
    else if l.isAtom then some [.op o l (.op o l r)]
    else if r.isAtom then some [.op o (.op o l r) r]
    else none := by
  have h : ([Arith.op o l r].filter (fun e => !e.isAtom)).reverse = [.op o l r] := rfl
  rw [Arith.seen, h, Arith.seenAll, seenAs_op]
  cases hl : l.isAtom <;> cases hr : r.isAtom <;> rfl

/-- **C44**: a call with the one argument `x o r`, `r` compound, sees `x o (x o r)`: the operator is applied twice. -/
theorem C44_twice_left {f : FuncType} {o : ArithOp} {x r : Arith} {s : JStr} (hv : (Arith.call f [.op o x r]).Valid)
    (hg : (Arith.call f [.op o x r]).Grouped) (hx : x.isAtom = true) (hr : r.isAtom = false) (hb : r.basic = true)
    (hs : Renders (Arith.call f [.op o x r]).lexemes s) (env : Env) (d : Data) :
    evaluateArith env s d = .ofResult (do
      let v ← (Arith.op o x (.op o x r)).value env d
      callFn env f (flattenItems [v])) := by
  have hxb : x.basic = true := by cases x <;> first | rfl | cases hx
  have h := C44_seen hv hg (by simp [Arith.basic, hxb, hb]) hs env d
  rw [seen_one, hx, hr] at h
  have h : evaluateArith env s d = .ofResult (do
      let vs ← Arith.values env d [Arith.op o x (.op o x r)]
      callFn env f (flattenItems vs)) := h
  rw [h, Arith.values, Arith.values]
  cases (Arith.op o x (.op o x r)).value env d <;> rfl

/-- **C44**: of `l o x`, `l` compound, it sees `(l o x) o x`. -/
theorem C44_twice_right {f : FuncType} {o : ArithOp} {l x : Arith} {s : JStr} (hv : (Arith.call f [.op o l x]).Valid)
    (hg : (Arith.call f [.op o l x]).Grouped) (hl : l.isAtom = false) (hb : l.basic = true) (hx : x.isAtom = true)
    (hs : Renders (Arith.call f [.op o l x]).lexemes s) (env : Env) (d : Data) :
    evaluateArith env s d = .ofResult (do
      let v ← (Arith.op o (.op o l x) x).value env d
      callFn env f (flattenItems [v])) := by
  have hxb : x.basic = true := by cases x <;> first | rfl | cases hx
  have h := C44_seen hv hg (by simp [Arith.basic, hxb, hb]) hs env d
  rw [seen_one, hx, hl] at h
  have h : evaluateArith env s d = .ofResult (do
      let vs ← Arith.values env d [Arith.op o (.op o l x) x]
      callFn env f (flattenItems vs)) := h
  rw [h, Arith.values, Arith.values]
  cases (Arith.op o (.op o l x) x).value env d <;> rfl

/-- **C44**: one argument with two compound operands is refused. -/
theorem C44_two_compounds {f : FuncType} {o : ArithOp} {l r : Arith} {s : JStr} (hv : (Arith.call f [.op o l r]).Valid)
    (hg : (Arith.call f [.op o l r]).Grouped) (hl : l.isAtom = false) (bl : l.basic = true) (hr : r.isAtom = false)
    (br : r.basic = true) (hs : Renders (Arith.call f [.op o l r]).lexemes s) (env : Env) (d : Data) :
    ∃ x, evaluateArith env s d = .failure x := by
  have h := C44_seen hv hg (by simp [Arith.basic, bl, br]) hs env d
  rw [seen_one, hl, hr] at h
  exact h

-- `min(100, 2 + 3*4)` sees 100 and 2 + (2 + 3*4)
example (env : Env) (d : Data) : evaluateArith env j!"min(100, 2 + 3*4)" d = .success (.int 16) := by
  have h := C44_seen (f := .min) (args := [.lit (.int j!"100"), .op .add (.lit (.int ['2']))
    (.op .mul (.lit (.int ['3'])) (.lit (.int ['4'])))]) (s := j!"min(100, 2 + 3*4)") (by decide) (by decide) rfl
    (renders_of (by krfl)) env d
  rw [show Arith.seen [.lit (.int j!"100"), .op .add (.lit (.int ['2'])) (.op .mul (.lit (.int ['3'])) (.lit (.int ['4'])))]
    = some [.lit (.int j!"100"), .op .add (.lit (.int ['2'])) (.op .add (.lit (.int ['2']))
      (.op .mul (.lit (.int ['3'])) (.lit (.int ['4']))))] from rfl] at h
  exact h.trans (by krfl)

-- in `max(1 + 2*3, 4 + 5)` the long argument takes the other one's place: it sees 1 + (4 + 5) and 4 + 5
example (env : Env) (d : Data) : evaluateArith env j!"max(1 + 2*3, 4 + 5)" d = .success (.int 10) := by
  have h := C44_seen (f := .max) (args := [.op .add (.lit (.int ['1'])) (.op .mul (.lit (.int ['2'])) (.lit (.int ['3']))),
    .op .add (.lit (.int ['4'])) (.lit (.int ['5']))]) (s := j!"max(1 + 2*3, 4 + 5)") (by decide) (by decide) rfl
    (renders_of (by krfl)) env d
  rw [show Arith.seen [.op .add (.lit (.int ['1'])) (.op .mul (.lit (.int ['2'])) (.lit (.int ['3']))),
    .op .add (.lit (.int ['4'])) (.lit (.int ['5']))]
    = some [.op .add (.lit (.int ['1'])) (.op .add (.lit (.int ['4'])) (.lit (.int ['5']))),
    .op .add (.lit (.int ['4'])) (.lit (.int ['5']))] from rfl] at h
  exact h.trans (by krfl)

example (env : Env) (d : Data) : evaluateArith env j!"int(1 * 2 + 3)" d = .success (.int 8) := by
  rw [C44_twice_right (f := .int) (o := .add) (l := .op .mul (.lit (.int ['1'])) (.lit (.int ['2']))) (x := .lit (.int ['3']))
    (by decide) (by decide) rfl rfl rfl (renders_of (by krfl))]
  krfl

example (env : Env) (d : Data) : evaluateArith env j!"int(3 + 1 * 2)" d = .success (.int 8) := by
  rw [C44_twice_left (f := .int) (o := .add) (r := .op .mul (.lit (.int ['1'])) (.lit (.int ['2']))) (x := .lit (.int ['3']))
    (by decide) (by decide) rfl rfl rfl (renders_of (by krfl))]
  krfl

example (env : Env) (d : Data) : ∃ x, evaluateArith env j!"int(3 * 4 + 1 * 2)" d = .failure x :=
  C44_two_compounds (f := .int) (o := .add) (l := .op .mul (.lit (.int ['3'])) (.lit (.int ['4'])))
    (r := .op .mul (.lit (.int ['1'])) (.lit (.int ['2']))) (by decide) (by decide) rfl rfl rfl rfl (renders_of (by krfl)) env d

end BoolParser
