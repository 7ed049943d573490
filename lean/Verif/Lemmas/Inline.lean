import Verif.Spec.Inline
import Verif.Lemmas.Meaning
import Verif.Lemmas.Paths
/-!
# Writing values in place of fields
-/

namespace BoolParser
open Spec

variable {σ : JStr → Option Lit}

theorem inline_isAtom (e : Arith) : (e.inline σ).isAtom = e.isAtom := by
  cases e with
  | field f => simp only [Arith.inline]; split <;> rfl
  | _ => simp only [Arith.inline, Arith.isAtom]

theorem inline_level (e : Arith) : (e.inline σ).level = e.level := by
  cases e with
  | field f => simp only [Arith.inline]; split <;> rfl
  | _ => simp only [Arith.inline, Arith.level]

theorem inline_isOperation : (e : Arith) → (e.inline σ).isOperation = e.isOperation
  | .field f => by simp only [Arith.inline]; split <;> rfl
  | .lit _ => by simp only [Arith.inline]
  | .group e => by simp only [Arith.inline, Arith.isOperation]; exact inline_isOperation e
  | .op _ _ _ => by simp only [Arith.inline, Arith.isOperation]
  | .neg _ => by simp only [Arith.inline, Arith.isOperation]
  | .call _ _ => by simp only [Arith.inline, Arith.isOperation]

theorem inline_atoms : (es : List Arith) → (Arith.inlineAll σ es).all Arith.isAtom = es.all Arith.isAtom
  | [] => by rw [Arith.inlineAll]
  | e :: es => by rw [Arith.inlineAll, List.all_cons, List.all_cons, inline_isAtom, inline_atoms es]

theorem inline_tidy : (e : Arith) → (e.inline σ).tidy = e.tidy
  | .field f => by simp only [Arith.inline]; split <;> rfl
  | .lit _ => by simp only [Arith.inline]
  | .group e => by simp only [Arith.inline, Arith.tidy]; exact inline_tidy e
  | .op _ l r => by simp only [Arith.inline, Arith.tidy]; rw [inline_tidy l, inline_tidy r]
  | .neg e => by simp only [Arith.inline, Arith.tidy]; exact inline_tidy e
  | .call _ args => by simp only [Arith.inline, Arith.tidy]; exact inline_atoms args

mutual
theorem inline_simpleArg : (e : Arith) → (e.inline σ).simpleArg = e.simpleArg
  | .field f => by simp only [Arith.inline]; split <;> simp only [Arith.simpleArg]
  | .lit _ => by simp only [Arith.inline]
  | .group e => by simp only [Arith.inline, Arith.simpleArg]
  | .op _ l r => by simp only [Arith.inline, Arith.simpleArg]; rw [inline_isAtom, inline_isAtom]
  | .neg e => by simp only [Arith.inline, Arith.simpleArg]
  | .call _ args => by simp only [Arith.inline, Arith.simpleArg]; exact inline_simpleArgs args
theorem inline_simpleArgs : (es : List Arith) → Arith.simpleArgs (Arith.inlineAll σ es) = Arith.simpleArgs es
  | [] => by rw [Arith.inlineAll]
  | e :: es => by rw [Arith.inlineAll, Arith.simpleArgs, Arith.simpleArgs, inline_simpleArg e, inline_simpleArgs es]
end

theorem inline_readable : (e : Arith) → ∀ a, (e.inline σ).readable a = e.readable a
  | .field f, a => by simp only [Arith.inline]; split <;> rfl
  | .lit _, a => by simp only [Arith.inline]
  | .group e, a => by simp only [Arith.inline, Arith.readable]; rw [inline_isAtom, inline_readable e]
  | .op _ l r, a => by
    simp only [Arith.inline, Arith.readable]
    rw [inline_readable l, inline_isAtom, inline_isOperation, inline_readable r, inline_isAtom, inline_tidy]
  | .neg e, a => by simp only [Arith.inline, Arith.readable]; rw [inline_isAtom, inline_readable e, inline_isOperation]
  | .call _ args, a => by simp only [Arith.inline, Arith.readable]; exact inline_simpleArgs args

mutual
theorem inline_valid (hσ : ∀ f l, σ f = some l → l.Valid) : (e : Arith) → e.Valid → (e.inline σ).Valid
  | .field f, h => by
    simp only [Arith.inline]
    split
    · rename_i l hl; rw [Arith.Valid]; exact hσ f l hl
    · exact h
  | .lit _, h => by simp only [Arith.inline]; exact h
  | .group e, h => by rw [Arith.Valid] at h; rw [Arith.inline, Arith.Valid]; exact inline_valid hσ e h
  | .op _ l r, h => by
    rw [Arith.Valid] at h; rw [Arith.inline, Arith.Valid]; exact ⟨inline_valid hσ l h.1, inline_valid hσ r h.2⟩
  | .neg e, h => by rw [Arith.Valid] at h; rw [Arith.inline, Arith.Valid]; exact inline_valid hσ e h
  | .call _ args, h => by
    rw [Arith.Valid] at h; rw [Arith.inline, Arith.Valid]
    refine ⟨?_, inline_allValid hσ args h.2⟩
    cases args with
    | nil => exact absurd rfl h.1
    | cons e es => rw [Arith.inlineAll]; simp
theorem inline_allValid (hσ : ∀ f l, σ f = some l → l.Valid) : (es : List Arith) → Arith.AllValid es →
    Arith.AllValid (Arith.inlineAll σ es)
  | [], h => by rw [Arith.inlineAll]; exact h
  | e :: es, h => by
    rw [Arith.AllValid] at h; rw [Arith.inlineAll, Arith.AllValid]
    exact ⟨inline_valid hσ e h.1, inline_allValid hσ es h.2⟩
end

mutual
theorem inline_grouped : (e : Arith) → e.Grouped → (e.inline σ).Grouped
  | .field f, h => by
    simp only [Arith.inline]
    split <;> (rw [Arith.Grouped]; trivial)
  | .lit _, h => by simp only [Arith.inline]; exact h
  | .group e, h => by rw [Arith.Grouped] at h; rw [Arith.inline, Arith.Grouped]; exact inline_grouped e h
  | .op _ l r, h => by
    rw [Arith.Grouped] at h
    rw [Arith.inline, Arith.Grouped, inline_level, inline_level]
    exact ⟨inline_grouped l h.1, inline_grouped r h.2.1, h.2.2⟩
  | .neg e, h => by
    rw [Arith.Grouped] at h; rw [Arith.inline, Arith.Grouped, inline_level]; exact ⟨inline_grouped e h.1, h.2⟩
  | .call _ args, h => by rw [Arith.Grouped] at h; rw [Arith.inline, Arith.Grouped]; exact inline_allGrouped args h
theorem inline_allGrouped : (es : List Arith) → Arith.AllGrouped es → Arith.AllGrouped (Arith.inlineAll σ es)
  | [], h => by rw [Arith.inlineAll]; exact h
  | e :: es, h => by
    rw [Arith.AllGrouped] at h; rw [Arith.inlineAll, Arith.AllGrouped]
    exact ⟨inline_grouped e h.1, inline_allGrouped es h.2⟩
end

mutual
theorem inline_value {env : Env} {d : Data} (hσ : ∀ f l, σ f = some l → getValueFromMap f d = .ok (some l.value)) :
    (e : Arith) → (e.inline σ).value env d = e.value env d
  | .field f => by
    simp only [Arith.inline]
    split
    · rename_i l hl
      rw [Arith.value, Arith.value, Arith.fieldValue, hσ f l hl]; rfl
    · rfl
  | .lit _ => by simp only [Arith.inline]
  | .group e => by rw [Arith.inline, Arith.value, Arith.value, inline_value hσ e]
  | .op _ l r => by rw [Arith.inline, Arith.value, Arith.value, inline_value hσ l, inline_value hσ r]
  | .neg e => by rw [Arith.inline, Arith.value, Arith.value, inline_value hσ e]
  | .call _ args => by rw [Arith.inline, Arith.value, Arith.value, inline_values hσ args]
theorem inline_values {env : Env} {d : Data} (hσ : ∀ f l, σ f = some l → getValueFromMap f d = .ok (some l.value)) :
    (es : List Arith) → Arith.values env d (Arith.inlineAll σ es) = Arith.values env d es
  | [] => by rw [Arith.inlineAll]
  | e :: es => by rw [Arith.inlineAll, Arith.values, Arith.values, inline_value hσ e, inline_values hσ es]
end

theorem inline_right {env : Env} {d : Data} (hσ : ∀ f l, σ f = some l → getValueFromMap f d = .ok (some l.value))
    (e : Arith) : Cond.rightValue env d (e.inline σ) = Cond.rightValue env d e := by
  cases e with
  | field f =>
    simp only [Arith.inline]
    split
    · rename_i l hl
      simp only [Cond.rightValue, Arith.value, hσ f l hl]; rfl
    · rfl
  | lit _ => simp only [Arith.inline]
  | group e => simp only [Arith.inline, Cond.rightValue]; rw [Arith.value, Arith.value, inline_value hσ e]
  | op _ l r =>
    simp only [Arith.inline, Cond.rightValue]; rw [Arith.value, Arith.value, inline_value hσ l, inline_value hσ r]
  | neg e => simp only [Arith.inline, Cond.rightValue]; rw [Arith.value, Arith.value, inline_value hσ e]
  | call f args => simp only [Arith.inline, Cond.rightValue]; rw [Arith.value, Arith.value, inline_values hσ args]

/-! ### Conditions -/

theorem inline_isCall (e : Arith) : Cond.isCall (e.inline σ) = Cond.isCall e := by
  cases e with
  | field f => simp only [Arith.inline]; split <;> rfl
  | _ => simp only [Arith.inline, Cond.isCall]

theorem inline_nullWord {e : Arith} (h : Cond.isNullWord e = false) : Cond.isNullWord (e.inline σ) = false := by
  cases e with
  | field f => simp only [Arith.inline]; split; exacts [rfl, h]
  | _ => simp only [Arith.inline, Cond.isNullWord]

theorem cinline_asLeft : (c : Cond) → (c.inline σ).asLeft = c.asLeft
  | .group c => by rw [Cond.inline, Cond.asLeft, Cond.asLeft, cinline_asLeft c]
  | .cmp _ _ _ | .cmpD _ _ | .isNull _ _ | .range _ _ _ | .isIn _ _ _ | .contains _ _ _ | .notField _
  | .not _ | .conn _ _ _ => rfl

theorem cinline_tight (c : Cond) : (c.inline σ).tight = c.tight := by cases c <;> rfl
theorem cinline_isConn (c : Cond) : (c.inline σ).isConn = c.isConn := by cases c <;> rfl

theorem cinline_tidy : (c : Cond) → (c.inline σ).tidy = c.tidy
  | .cmp _ l r => by rw [Cond.inline, Cond.tidy, Cond.tidy, inline_isAtom, inline_isAtom, inline_tidy, inline_tidy]
  | .cmpD _ r => by rw [Cond.inline, Cond.tidy, Cond.tidy, inline_tidy]
  | .isNull _ _ | .range _ _ _ | .notField _ => by rw [Cond.inline]
  | .isIn _ _ _ => by rw [Cond.inline, Cond.tidy, Cond.tidy, inline_atoms]
  | .contains _ _ _ => by rw [Cond.inline, Cond.tidy, Cond.tidy, inline_atoms]
  | .not c => by rw [Cond.inline, Cond.tidy, Cond.tidy, cinline_tidy c]
  | .group c => by rw [Cond.inline, Cond.tidy, Cond.tidy, cinline_tidy c]
  | .conn _ l r => by rw [Cond.inline, Cond.tidy, Cond.tidy, cinline_tidy l, cinline_tidy r]

theorem cinline_readable : (c : Cond) → ∀ a, (c.inline σ).readable a = c.readable a
  | .cmp _ l r, a => by
    rw [Cond.inline, Cond.readable, Cond.readable]
    simp only [inline_isAtom, inline_readable, inline_isCall]
  | .cmpD _ r, a => by rw [Cond.inline, Cond.readable, Cond.readable, inline_isAtom, inline_readable]
  | .isNull _ _, _ | .range _ _ _, _ | .notField _, _ => by rw [Cond.inline]
  | .isIn _ _ _, a => by rw [Cond.inline, Cond.readable, Cond.readable, inline_simpleArgs]
  | .contains _ _ _, a => by rw [Cond.inline, Cond.readable, Cond.readable, inline_simpleArgs]
  | .not c, a => by rw [Cond.inline, Cond.readable, Cond.readable, cinline_readable c]
  | .group c, a => by rw [Cond.inline, Cond.readable, Cond.readable, cinline_readable c]
  | .conn _ l r, a => by
    rw [Cond.inline, Cond.readable, Cond.readable, cinline_readable l, cinline_asLeft, cinline_readable r, cinline_tidy]

theorem inlineAll_ne {es : List Arith} (h : es ≠ []) : Arith.inlineAll σ es ≠ [] := by
  cases es with
  | nil => exact absurd rfl h
  | cons e es => rw [Arith.inlineAll]; simp

theorem cinline_valid (hσ : ∀ f l, σ f = some l → l.Valid) : (c : Cond) → c.Valid → (c.inline σ).Valid
  | .cmp _ l r, h => ⟨inline_valid hσ l h.1, inline_valid hσ r h.2.1,
      fun ho => ⟨inline_nullWord (h.2.2 ho).1, inline_nullWord (h.2.2 ho).2⟩⟩
  | .cmpD _ r, h => ⟨inline_valid hσ r h.1, fun ho => inline_nullWord (h.2 ho)⟩
  | .isNull _ _, h | .range _ _ _, h | .notField _, h => h
  | .isIn _ _ items, h => ⟨h.1, inlineAll_ne h.2.1, inline_allValid hσ items h.2.2⟩
  | .contains _ _ items, h => ⟨h.1, inlineAll_ne h.2.1, inline_allValid hσ items h.2.2⟩
  | .not c, h => cinline_valid hσ c h
  | .group c, h => cinline_valid hσ c h
  | .conn _ l r, h => ⟨cinline_valid hσ l h.1, cinline_valid hσ r h.2⟩

theorem cinline_grouped : (c : Cond) → c.Grouped → (c.inline σ).Grouped
  | .cmp _ l r, h => ⟨inline_grouped l h.1, inline_grouped r h.2.1, by rw [inline_level]; exact h.2.2.1,
      by rw [inline_level]; exact h.2.2.2⟩
  | .cmpD _ r, h => ⟨inline_grouped r h.1, by rw [inline_level]; exact h.2⟩
  | .isNull _ _, h | .range _ _ _, h | .notField _, h => h
  | .isIn _ _ items, h => inline_allGrouped items h
  | .contains _ _ items, h => inline_allGrouped items h
  | .not c, h => ⟨cinline_grouped c h.1, by rw [cinline_tight]; exact h.2⟩
  | .group c, h => cinline_grouped c h
  | .conn _ l r, h => ⟨cinline_grouped l h.1, cinline_grouped r h.2.1, by rw [cinline_isConn]; exact h.2.2⟩

theorem cinline_meaning {env : Env} {d : Data} {df : Option JStr}
    (hσ : ∀ f l, σ f = some l → getValueFromMap f d = .ok (some l.value)) :
    (c : Cond) → (c.inline σ).meaning env d df = c.meaning env d df
  | .cmp _ l r => by rw [Cond.inline, Cond.meaning, Cond.meaning, inline_value hσ, inline_right hσ]
  | .cmpD _ r => by rw [Cond.inline, Cond.meaning, Cond.meaning, inline_right hσ]
  | .isNull _ _ | .range _ _ _ | .notField _ => by rw [Cond.inline]
  | .isIn _ _ items => by rw [Cond.inline, Cond.meaning, Cond.meaning, inline_values hσ]
  | .contains _ _ items => by rw [Cond.inline, Cond.meaning, Cond.meaning, inline_values hσ]
  | .not c => by rw [Cond.inline, Cond.meaning, Cond.meaning, cinline_meaning hσ c]
  | .group c => by rw [Cond.inline, Cond.meaning, Cond.meaning, cinline_meaning hσ c]
  | .conn _ l r => by rw [Cond.inline, Cond.meaning, Cond.meaning, cinline_meaning hσ l, cinline_meaning hσ r]

theorem Spec.Writes.inline {s s' : JStr} {c : Cond} (h : Writes s c) (hσ : ∀ f l, σ f = some l → l.Valid)
    (hs : Renders (c.inline σ).lexemes s') : Writes s' (c.inline σ) :=
  ⟨cinline_valid hσ c h.valid, cinline_grouped c h.grouped, by rw [cinline_readable]; exact h.readable, hs⟩

theorem Spec.WritesArith.inline {s s' : JStr} {e : Arith} (h : WritesArith s e) (hσ : ∀ f l, σ f = some l → l.Valid)
    (hs : Renders (e.inline σ).lexemes s') : WritesArith s' (e.inline σ) :=
  ⟨inline_valid hσ e h.valid, inline_grouped e h.grouped, by rw [inline_readable]; exact h.readable,
    by rw [inline_isAtom]; exact h.compound, hs⟩

end BoolParser
