import Verif.Lemmas.SeenLists
import Verif.Props.Pipeline
/-!
# What IN and CONTAINS see of long items (C44)

The items of a list go the same way as the arguments of a function.
-/

namespace BoolParser
open Spec

/-- **C44** for IN: the text means the condition with the items `Arith.seen items` (`Spec/Seen.lean`), or is refused if
there are none. -/
theorem C44_seen_in {f : JStr} {neg : Bool} {items : List Arith} {s : JStr} (hv : (Cond.isIn f neg items).Valid)
    (hg : (Cond.isIn f neg items).Grouped) (hb : items.all Arith.basic = true)
    (hs : Renders (Cond.isIn f neg items).lexemes s) (env : Env) (d : Data) (df : Option JStr) :
    match Arith.seen items with
    | some as => evaluate env s d df = .ofResult ((Cond.isIn f neg as).meaning env d df)
    | none => ∃ x, evaluate env s d df = .failure x := by
  have h := in_seen hv hg hb hs df
  rw [Cond.Valid] at hv
  cases e : Arith.seen items with
  | none =>
    rw [e] at h
    obtain ⟨x, h⟩ := h
    exact ⟨x, by rw [evaluate, h]; rfl⟩
  | some as =>
    rw [e] at h
    show evaluate env s d df = _
    rw [evaluate, h, ← seen_in_meaning env d df f neg (seen_valid e hv.2.2)]
    rfl

/-- **C44** for CONTAINS_ALL and CONTAINS_ANY. -/
theorem C44_seen_contains {f : JStr} {o : ArrOp} {items : List Arith} {s : JStr} (hv : (Cond.contains f o items).Valid)
    (hg : (Cond.contains f o items).Grouped) (hb : items.all Arith.basic = true)
    (hs : Renders (Cond.contains f o items).lexemes s) (env : Env) (d : Data) (df : Option JStr) :
    match Arith.seen items with
    | some as => evaluate env s d df = .ofResult ((Cond.contains f o as).meaning env d df)
    | none => ∃ x, evaluate env s d df = .failure x := by
  have h := contains_seen hv hg hb hs df
  rw [Cond.Valid] at hv
  cases e : Arith.seen items with
  | none =>
    rw [e] at h
    obtain ⟨x, h⟩ := h
    exact ⟨x, by rw [evaluate, h]; rfl⟩
  | some as =>
    rw [e] at h
    show evaluate env s d df = _
    rw [evaluate, h, ← seen_contains_meaning env d df f o (seen_valid e hv.2.2)]
    rfl

-- `a IN (1, 2 + 3*4)` looks for 1 and 2 + (2 + 3*4): 16 is found
example (env : Env) : evaluate env j!"a IN (1, 2 + 3*4)" [(['a'], .int 16)] none = .success true := by
  have h := C44_seen_in (f := ['a']) (neg := false) (items := [.lit (.int ['1']), .op .add (.lit (.int ['2']))
    (.op .mul (.lit (.int ['3'])) (.lit (.int ['4'])))]) (s := j!"a IN (1, 2 + 3*4)") (by decide) (by decide) rfl
    (renders_of (by krfl)) env [(['a'], .int 16)] none
  rw [show Arith.seen [.lit (.int ['1']), .op .add (.lit (.int ['2'])) (.op .mul (.lit (.int ['3'])) (.lit (.int ['4'])))]
    = some [.lit (.int ['1']), .op .add (.lit (.int ['2'])) (.op .add (.lit (.int ['2']))
      (.op .mul (.lit (.int ['3'])) (.lit (.int ['4']))))] from rfl] at h
  exact h.trans (by krfl)

-- and 14 is not
example (env : Env) : evaluate env j!"a IN (1, 2 + 3*4)" [(['a'], .int 14)] none = .success false := by
  have h := C44_seen_in (f := ['a']) (neg := false) (items := [.lit (.int ['1']), .op .add (.lit (.int ['2']))
    (.op .mul (.lit (.int ['3'])) (.lit (.int ['4'])))]) (s := j!"a IN (1, 2 + 3*4)") (by decide) (by decide) rfl
    (renders_of (by krfl)) env [(['a'], .int 14)] none
  rw [show Arith.seen [.lit (.int ['1']), .op .add (.lit (.int ['2'])) (.op .mul (.lit (.int ['3'])) (.lit (.int ['4'])))]
    = some [.lit (.int ['1']), .op .add (.lit (.int ['2'])) (.op .add (.lit (.int ['2']))
      (.op .mul (.lit (.int ['3'])) (.lit (.int ['4']))))] from rfl] at h
  exact h.trans (by krfl)

example (env : Env) : evaluate env j!"a CONTAINS_ANY (2 + 3*4)" [(['a'], .list [.int 16])] none = .success true := by
  have h := C44_seen_contains (f := ['a']) (o := .containsAny) (items := [.op .add (.lit (.int ['2']))
    (.op .mul (.lit (.int ['3'])) (.lit (.int ['4'])))]) (s := j!"a CONTAINS_ANY (2 + 3*4)") (by decide) (by decide) rfl
    (renders_of (by krfl)) env [(['a'], .list [.int 16])] none
  rw [show Arith.seen [.op .add (.lit (.int ['2'])) (.op .mul (.lit (.int ['3'])) (.lit (.int ['4'])))]
    = some [.op .add (.lit (.int ['2'])) (.op .add (.lit (.int ['2']))
      (.op .mul (.lit (.int ['3'])) (.lit (.int ['4']))))] from rfl] at h
  exact h.trans (by krfl)

end BoolParser
