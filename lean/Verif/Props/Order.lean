import Verif.Spec.Order
import Verif.Props.Understood
/-!
# Changing the order of the operands of AND and OR (C43)
-/

namespace BoolParser
open Spec

theorem asLeft_test (y : Cond) : y.asLeft = if y.membership then .membership else .test := by
  induction y with
  | isIn f ng items => cases ng <;> rfl
  | group c ih => exact ih
  | _ => rfl

theorem readable_after {left : Cond.Left} (hl : left ≠ .nothing) : (c : Cond) → c.readable .nothing = true →
    (c.readable left = true ↔ c.leftmost.bareNot = false ∧ ¬ (left = .membership ∧ c.leftmost.plainTest = true))
  | .cmp o l r, h => by
    rw [Cond.readable] at h
    simp only [Cond.readable, Cond.leftmost, Cond.bareNot, Cond.plainTest, true_and]
    split
    · rename_i ha; simp [ha]
    · rename_i ha
      rw [if_neg ha] at h
      simp [ha, h]
  | .cmpD o r, h => by
    rw [Cond.readable] at h
    simp only [Cond.readable, Cond.leftmost, Cond.bareNot, Cond.plainTest, true_and]
    split
    · rename_i ha; simp [ha]
    · rename_i ha
      rw [if_neg ha] at h
      simp [ha, h]
  | .isNull f e, h => by simp [Cond.readable, Cond.leftmost, Cond.bareNot, Cond.plainTest]
  | .range f a b, h => by simp [Cond.readable, Cond.leftmost, Cond.bareNot, Cond.plainTest]
  | .isIn f n items, h => by
    rw [Cond.readable] at h
    simp [Cond.readable, Cond.leftmost, Cond.bareNot, Cond.plainTest, h]
  | .contains f o items, h => by
    rw [Cond.readable] at h
    simp [Cond.readable, Cond.leftmost, Cond.bareNot, Cond.plainTest, h]
  | .notField f, h => by simp [Cond.readable, Cond.leftmost, Cond.bareNot, hl]
  | .not c, h => by rw [Cond.readable] at h ⊢; exact readable_after hl c h
  | .group c, h => by rw [Cond.readable] at h ⊢; exact readable_after hl c h
  | .conn b l r, h => by
    rw [Cond.readable, Bool.and_eq_true] at h
    rw [Cond.readable, Bool.and_eq_true, Cond.leftmost, readable_after hl l h.1]
    exact ⟨fun x => x.1, fun x => ⟨x, h.2⟩⟩

theorem asLeft_ne (y : Cond) : y.asLeft ≠ .nothing := by rw [asLeft_test]; split <;> decide

theorem follows {x y : Cond} (hx : x.readable .nothing = true) :
    x.readable y.asLeft = true ∧ x.tidy = true ↔ x.MayFollow y := by
  rw [readable_after (asLeft_ne y) x hx, asLeft_test, Cond.MayFollow]
  have : ((if y.membership = true then Cond.Left.membership else Cond.Left.test) = .membership) ↔ y.membership = true := by
    split <;> simp [*]
  rw [this]
  exact and_comm

theorem swapped_valid {b : Bool} {x y : Cond} {s : JStr} (h : Writes s (.conn b (.group x) (.group y))) :
    (Cond.conn b (.group y) (.group x)).Valid ∧ (Cond.conn b (.group y) (.group x)).Grouped ∧
    x.readable .nothing = true ∧ y.readable .nothing = true := by
  have hr := h.readable
  rw [Cond.readable, Bool.and_eq_true, Bool.and_eq_true] at hr
  exact ⟨⟨h.valid.2, h.valid.1⟩, ⟨h.grouped.2.1, h.grouped.1, rfl⟩, hr.1, readable_first y _ hr.2.1⟩

/-- **C43.** If `(x) AND (y)` is understood, so is `(y) AND (x)` whenever `x` may follow `y` (`Spec/Order.lean`); then the
operands have changed places in the node. The same for OR. -/
theorem C43_swap {b : Bool} {x y : Cond} {s s' : JStr} (h : Writes s (.conn b (.group x) (.group y)))
    (hs : Renders (Cond.conn b (.group y) (.group x)).lexemes s') (hf : x.MayFollow y) (df : Option JStr) :
    ∃ m n, parseExpression s df = .success (if b then .and_ m n else .or_ m n) ∧
      parseExpression s' df = .success (if b then .and_ n m else .or_ n m) := by
  obtain ⟨hv, hg, hx, hy⟩ := swapped_valid h
  obtain ⟨h1, h2⟩ := (follows hx).2 hf
  have w : Writes s' (.conn b (.group y) (.group x)) := ⟨hv, hg, by
    rw [Cond.readable, Bool.and_eq_true, Bool.and_eq_true]; exact ⟨hy, h1, h2⟩, hs⟩
  exact ⟨x.node df, y.node df, h.node df, w.node df⟩

/-- **C43**, exactly: without repeated names and literals, the two orders are both understood or `x` may not follow
`y`. -/
theorem C43_swap_exact {b : Bool} {x y : Cond} {s s' : JStr} (h : Writes s (.conn b (.group x) (.group y)))
    (hs : Renders (Cond.conn b (.group y) (.group x)).lexemes s') {df : Option JStr}
    (hd : (Cond.conn b (.group y) (.group x)).Distinct df) :
    parseExpression s' df = .success (if b then .and_ (y.node df) (x.node df) else .or_ (y.node df) (x.node df)) ↔
      x.MayFollow y := by
  obtain ⟨hv, hg, hx, hy⟩ := swapped_valid h
  refine (C85_connective hv hg hd hs).trans ?_
  rw [← follows hx]
  exact ⟨fun z => z.2, fun z => ⟨hy, z⟩⟩

/-- **C43**, the outcome: `y` decides first in the other order, which shows only if one of the two fails: if both have a
result, the order does not matter. -/
theorem C43_swap_outcome {b : Bool} {x y : Cond} {s s' sx sy : JStr} (h : Writes s (.conn b (.group x) (.group y)))
    (hs : Renders (Cond.conn b (.group y) (.group x)).lexemes s') (hf : x.MayFollow y) (hx : Writes sx x) (hy : Writes sy y)
    {df : Option JStr} (hdf : DefaultOk df) (env : Env) (d : Data) {p q : Bool}
    (ex : evaluate env sx d df = .success p) (ey : evaluate env sy d df = .success q) :
    evaluate env s' d df = evaluate env s d df := by
  obtain ⟨hv, hg, rx, ry⟩ := swapped_valid h
  obtain ⟨h1, h2⟩ := (follows rx).2 hf
  have w : Writes s' (.conn b (.group y) (.group x)) := ⟨hv, hg, by
    rw [Cond.readable, Bool.and_eq_true, Bool.and_eq_true]; exact ⟨ry, h1, h2⟩, hs⟩
  rw [hx.eval env d hdf] at ex
  rw [hy.eval env d hdf] at ey
  rw [w.eval env d hdf, h.eval env d hdf]
  simp only [Cond.meaning]
  cases mx : x.meaning env d df with
  | error e => rw [mx] at ex; cases ex
  | ok p' =>
    cases my : y.meaning env d df with
    | error e => rw [my] at ey; cases ey
    | ok q' => cases b <;> cases p' <;> cases q' <;> rfl

-- `a IN (1)` may follow `b = 5`, not the other way round
example : (Cond.isIn ['a'] false [.lit (.int ['1'])]).MayFollow (.cmp .eq (.field ['b']) (.lit (.int ['5']))) ∧
    ¬ (Cond.cmp .eq (.field ['b']) (.lit (.int ['5']))).MayFollow (.isIn ['a'] false [.lit (.int ['1'])]) :=
  ⟨⟨rfl, rfl, by decide⟩, fun h => h.2.2 ⟨rfl, rfl⟩⟩

example : ∃ m n, parseExpression j!"(a IN (1)) AND (len(b) = 5)" none = .success (.and_ m n) ∧
    parseExpression j!"(len(b) = 5) AND (a IN (1))" none = .success (.and_ n m) :=
  C43_swap (b := true) (x := .isIn ['a'] false [.lit (.int ['1'])])
    (y := .cmp .eq (.call .len [.field ['b']]) (.lit (.int ['5']))) (writes_of (by krfl)) (renders_of (by krfl))
    ⟨rfl, rfl, by decide⟩ none

example : parseExpression j!"(a IN (1)) AND (b = 5)" none ≠
    .success (.and_ (.inn ['a'] [.unary .integer (.int 1)]) (.cmp (.field (some ['b'])) (.unary .integer (.int 5)) .eq .integer)) := by
  intro h
  have := (C43_swap_exact (b := true) (x := .cmp .eq (.field ['b']) (.lit (.int ['5'])))
    (y := .isIn ['a'] false [.lit (.int ['1'])]) (s := j!"(b = 5) AND (a IN (1))") (s' := j!"(a IN (1)) AND (b = 5)")
    (df := none) (writes_of (by krfl)) (renders_of (by krfl))
    ⟨by
      have h1 : (Lit.int ['1']).value = .int 1 := by krfl
      have h5 : (Lit.int ['5']).value = .int 5 := by krfl
      simp [Cond.items, Arith.items, Arith.itemsAll, h1, h5],
      by simp [Cond.items, Arith.items, Arith.itemsAll], by simp⟩).1 h
  exact this.2.2 ⟨rfl, rfl⟩

end BoolParser
