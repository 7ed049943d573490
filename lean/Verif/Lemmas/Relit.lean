import Verif.Lemmas.Fragment
import Verif.Spec.Relit
/-!
# Writing literals differently changes nothing
-/

namespace BoolParser
open Spec

variable {g : Lit → Lit}

namespace Spec.Arith

theorem mapLit_isAtom (g : Lit → Lit) (e : Arith) : (e.mapLit g).isAtom = e.isAtom := by
  cases e <;> simp [mapLit, isAtom]

theorem mapLit_level (g : Lit → Lit) (e : Arith) : (e.mapLit g).level = e.level := by
  cases e <;> simp [mapLit, level]

theorem mapLit_isOperation (g : Lit → Lit) : (e : Arith) → (e.mapLit g).isOperation = e.isOperation
  | .field _ => by simp [mapLit]
  | .lit _ => by simp [mapLit, isOperation]
  | .group e => by rw [mapLit, isOperation, isOperation, mapLit_isOperation g e]
  | .op _ _ _ => by simp [mapLit, isOperation]
  | .neg _ => by simp [mapLit, isOperation]
  | .call _ _ => by simp [mapLit, isOperation]

theorem mapLits_all (g : Lit → Lit) : (es : List Arith) → (mapLits g es).all isAtom = es.all isAtom
  | [] => by rw [mapLits]
  | e :: es => by rw [mapLits, List.all_cons, List.all_cons, mapLit_isAtom, mapLits_all g es]

theorem mapLits_ne (g : Lit → Lit) {es : List Arith} (h : es ≠ []) : mapLits g es ≠ [] := by
  cases es with
  | nil => exact absurd rfl h
  | cons e es => rw [mapLits]; simp

theorem mapLit_tidy (g : Lit → Lit) : (e : Arith) → (e.mapLit g).tidy = e.tidy
  | .field _ => by simp [mapLit]
  | .lit _ => by simp [mapLit, tidy]
  | .group e => by rw [mapLit, tidy, tidy, mapLit_tidy g e]
  | .op _ l r => by rw [mapLit, tidy, tidy, mapLit_tidy g l, mapLit_tidy g r]
  | .neg e => by rw [mapLit, tidy, tidy, mapLit_tidy g e]
  | .call _ args => by rw [mapLit, tidy, tidy, mapLits_all]

mutual
theorem mapLit_simpleArg (g : Lit → Lit) : (e : Arith) → (e.mapLit g).simpleArg = e.simpleArg
  | .field _ => by simp [mapLit]
  | .lit _ => by simp [mapLit, simpleArg]
  | .group _ => by simp [mapLit, simpleArg]
  | .op _ l r => by rw [mapLit, simpleArg, simpleArg, mapLit_isAtom, mapLit_isAtom]
  | .neg _ => by simp [mapLit, simpleArg]
  | .call _ args => by rw [mapLit, simpleArg, simpleArg, mapLits_simpleArgs g args]
theorem mapLits_simpleArgs (g : Lit → Lit) : (es : List Arith) → simpleArgs (mapLits g es) = simpleArgs es
  | [] => by rw [mapLits]
  | e :: es => by rw [mapLits, simpleArgs, simpleArgs, mapLit_simpleArg g e, mapLits_simpleArgs g es]
end

theorem mapLit_readable (g : Lit → Lit) : (e : Arith) → (after : Bool) →
    (e.mapLit g).readable after = e.readable after
  | .field _, _ => by simp [mapLit]
  | .lit _, _ => by simp [mapLit, readable]
  | .group e, after => by rw [mapLit, readable, readable, mapLit_isAtom, mapLit_readable g e]
  | .op _ l r, after => by
    rw [mapLit, readable, readable, mapLit_isAtom, mapLit_isAtom, mapLit_readable g l, mapLit_readable g r,
      mapLit_isOperation, mapLit_tidy]
  | .neg e, after => by
    rw [mapLit, readable, readable, mapLit_isAtom, mapLit_readable g e, mapLit_isOperation]
  | .call _ args, after => by rw [mapLit, readable, readable, mapLits_simpleArgs]

mutual
theorem mapLit_valid (hg : SameLit g) : (e : Arith) → e.Valid → (e.mapLit g).Valid
  | .field _, h => by rw [mapLit]; exact h
  | .lit l, h => by rw [mapLit, Valid]; exact hg.valid l h
  | .group e, h => by rw [mapLit, Valid]; exact mapLit_valid hg e (by rw [Valid] at h; exact h)
  | .op _ l r, h => by
    rw [Valid] at h; rw [mapLit, Valid]; exact ⟨mapLit_valid hg l h.1, mapLit_valid hg r h.2⟩
  | .neg e, h => by rw [mapLit, Valid]; exact mapLit_valid hg e (by rw [Valid] at h; exact h)
  | .call _ args, h => by
    rw [Valid] at h; rw [mapLit, Valid]; exact ⟨mapLits_ne g h.1, mapLits_valid hg args h.2⟩
theorem mapLits_valid (hg : SameLit g) : (es : List Arith) → AllValid es → AllValid (mapLits g es)
  | [], h => by rw [mapLits]; exact h
  | e :: es, h => by
    rw [AllValid] at h; rw [mapLits, AllValid]; exact ⟨mapLit_valid hg e h.1, mapLits_valid hg es h.2⟩
end

mutual
theorem mapLit_grouped (g : Lit → Lit) : (e : Arith) → e.Grouped → (e.mapLit g).Grouped
  | .field _, h => by rw [mapLit]; exact h
  | .lit _, _ => by rw [mapLit, Grouped]; trivial
  | .group e, h => by rw [mapLit, Grouped]; exact mapLit_grouped g e (by rw [Grouped] at h; exact h)
  | .op _ l r, h => by
    rw [Grouped] at h; rw [mapLit, Grouped, mapLit_level, mapLit_level]
    exact ⟨mapLit_grouped g l h.1, mapLit_grouped g r h.2.1, h.2.2⟩
  | .neg e, h => by
    rw [Grouped] at h; rw [mapLit, Grouped, mapLit_level]; exact ⟨mapLit_grouped g e h.1, h.2⟩
  | .call _ args, h => by rw [Grouped] at h; rw [mapLit, Grouped]; exact mapLits_grouped g args h
theorem mapLits_grouped (g : Lit → Lit) : (es : List Arith) → AllGrouped es → AllGrouped (mapLits g es)
  | [], h => by rw [mapLits]; exact h
  | e :: es, h => by
    rw [AllGrouped] at h; rw [mapLits, AllGrouped]; exact ⟨mapLit_grouped g e h.1, mapLits_grouped g es h.2⟩
end

mutual
theorem mapLit_value (hg : ∀ l, (g l).value = l.value) (env : Env) (d : Data) : (e : Arith) →
    (e.mapLit g).value env d = e.value env d
  | .field _ => by rw [mapLit]
  | .lit l => by rw [mapLit, value, value, hg]
  | .group e => by rw [mapLit, value, value, mapLit_value hg env d e]
  | .op _ l r => by rw [mapLit, value, value, mapLit_value hg env d l, mapLit_value hg env d r]
  | .neg e => by rw [mapLit, value, value, mapLit_value hg env d e]
  | .call _ args => by rw [mapLit, value, value, mapLits_values hg env d args]
theorem mapLits_values (hg : ∀ l, (g l).value = l.value) (env : Env) (d : Data) : (es : List Arith) →
    values env d (mapLits g es) = values env d es
  | [] => by rw [mapLits]
  | e :: es => by rw [mapLits, values, values, mapLit_value hg env d e, mapLits_values hg env d es]
end

end Spec.Arith

namespace Spec.Cond

theorem mapLit_isNullWord (g : Lit → Lit) (e : Arith) : isNullWord (e.mapLit g) = isNullWord e := by
  cases e <;> simp [Arith.mapLit, isNullWord]

theorem mapLit_isCall (g : Lit → Lit) (e : Arith) : isCall (e.mapLit g) = isCall e := by
  cases e <;> simp [Arith.mapLit, isCall]

theorem mapLit_rightValue (hg : ∀ l, (g l).value = l.value) (env : Env) (d : Data) (e : Arith) :
    rightValue env d (e.mapLit g) = rightValue env d e := by
  have h := Arith.mapLit_value hg env d e
  cases e with
  | field f => rw [Arith.mapLit]
  | _ => simp only [Arith.mapLit] at h ⊢; exact h

theorem mapLit_tight (g : Lit → Lit) (c : Cond) : (c.mapLit g).tight = c.tight := by cases c <;> rfl
theorem mapLit_isConn (g : Lit → Lit) (c : Cond) : (c.mapLit g).isConn = c.isConn := by cases c <;> rfl

theorem mapLit_asLeft (g : Lit → Lit) : (c : Cond) → (c.mapLit g).asLeft = c.asLeft
  | .group c => by rw [mapLit, asLeft, asLeft, mapLit_asLeft g c]
  | .cmp _ _ _ | .cmpD _ _ | .isNull _ _ | .range _ _ _ | .isIn _ _ _ | .contains _ _ _ | .notField _
  | .not _ | .conn _ _ _ => rfl

theorem mapLit_tidy (g : Lit → Lit) : (c : Cond) → (c.mapLit g).tidy = c.tidy
  | .cmp _ l r => by
    rw [mapLit, tidy, tidy, Arith.mapLit_isAtom, Arith.mapLit_isAtom, Arith.mapLit_tidy, Arith.mapLit_tidy]
  | .cmpD _ r => by rw [mapLit, tidy, tidy, Arith.mapLit_tidy]
  | .isNull _ _ => rfl
  | .range _ _ _ => rfl
  | .isIn _ _ items => by rw [mapLit, tidy, tidy, Arith.mapLits_all]
  | .contains _ _ items => by rw [mapLit, tidy, tidy, Arith.mapLits_all]
  | .notField _ => rfl
  | .not c => by rw [mapLit, tidy, tidy, mapLit_tidy g c]
  | .group c => by rw [mapLit, tidy, tidy, mapLit_tidy g c]
  | .conn _ l r => by rw [mapLit, tidy, tidy, mapLit_tidy g l, mapLit_tidy g r]

theorem mapLit_readable (g : Lit → Lit) : (c : Cond) → (left : Left) →
    (c.mapLit g).readable left = c.readable left
  | .cmp _ l r, _ => by
    rw [mapLit, readable, readable, Arith.mapLit_isAtom, Arith.mapLit_isAtom, Arith.mapLit_readable,
      Arith.mapLit_readable, mapLit_isCall, mapLit_isCall]
  | .cmpD _ r, _ => by rw [mapLit, readable, readable, Arith.mapLit_isAtom, Arith.mapLit_readable]
  | .isNull _ _, _ => rfl
  | .range _ _ _, _ => rfl
  | .isIn _ _ items, _ => by rw [mapLit, readable, readable, Arith.mapLits_simpleArgs]
  | .contains _ _ items, _ => by rw [mapLit, readable, readable, Arith.mapLits_simpleArgs]
  | .notField _, _ => rfl
  | .not c, _ => by rw [mapLit, readable, readable, mapLit_readable g c]
  | .group c, _ => by rw [mapLit, readable, readable, mapLit_readable g c]
  | .conn _ l r, _ => by
    rw [mapLit, readable, readable, mapLit_readable g l, mapLit_readable g r, mapLit_asLeft, mapLit_tidy]

theorem mapLit_valid (hg : SameLit g) : (c : Cond) → c.Valid → (c.mapLit g).Valid
  | .cmp _ l r, h => by
    rw [Valid] at h; rw [mapLit, Valid, mapLit_isNullWord, mapLit_isNullWord]
    exact ⟨Arith.mapLit_valid hg l h.1, Arith.mapLit_valid hg r h.2.1, h.2.2⟩
  | .cmpD _ r, h => by
    rw [Valid] at h; rw [mapLit, Valid, mapLit_isNullWord]; exact ⟨Arith.mapLit_valid hg r h.1, h.2⟩
  | .isNull _ _, h => h
  | .range _ lo hi, h => by
    rw [Valid] at h; rw [mapLit, Valid, hg.number, hg.number]
    exact ⟨h.1, hg.valid lo h.2.1, hg.valid hi h.2.2.1, h.2.2.2⟩
  | .isIn _ _ items, h => by
    rw [Valid] at h; rw [mapLit, Valid]
    exact ⟨h.1, Arith.mapLits_ne g h.2.1, Arith.mapLits_valid hg items h.2.2⟩
  | .contains _ _ items, h => by
    rw [Valid] at h; rw [mapLit, Valid]
    exact ⟨h.1, Arith.mapLits_ne g h.2.1, Arith.mapLits_valid hg items h.2.2⟩
  | .notField _, h => h
  | .not c, h => mapLit_valid hg c h
  | .group c, h => mapLit_valid hg c h
  | .conn _ l r, h => ⟨mapLit_valid hg l h.1, mapLit_valid hg r h.2⟩

theorem mapLit_grouped (g : Lit → Lit) : (c : Cond) → c.Grouped → (c.mapLit g).Grouped
  | .cmp _ l r, h => by
    rw [Grouped] at h; rw [mapLit, Grouped, Arith.mapLit_level, Arith.mapLit_level]
    exact ⟨Arith.mapLit_grouped g l h.1, Arith.mapLit_grouped g r h.2.1, h.2.2⟩
  | .cmpD _ r, h => by
    rw [Grouped] at h; rw [mapLit, Grouped, Arith.mapLit_level]; exact ⟨Arith.mapLit_grouped g r h.1, h.2⟩
  | .isNull _ _, h => h
  | .range _ _ _, _ => trivial
  | .isIn _ _ items, h => by rw [Grouped] at h; rw [mapLit, Grouped]; exact Arith.mapLits_grouped g items h
  | .contains _ _ items, h => by rw [Grouped] at h; rw [mapLit, Grouped]; exact Arith.mapLits_grouped g items h
  | .notField _, h => h
  | .not c, h => ⟨mapLit_grouped g c h.1, by rw [mapLit_tight]; exact h.2⟩
  | .group c, h => mapLit_grouped g c h
  | .conn _ l r, h => ⟨mapLit_grouped g l h.1, mapLit_grouped g r h.2.1, by rw [mapLit_isConn]; exact h.2.2⟩

theorem mapLit_meaning (hg : ∀ l, (g l).value = l.value) (env : Env) (d : Data) (df : Option JStr) : (c : Cond) →
    (c.mapLit g).meaning env d df = c.meaning env d df
  | .cmp _ l r => by
    rw [mapLit, meaning, meaning, Arith.mapLit_value hg, mapLit_rightValue hg]
  | .cmpD _ r => by rw [mapLit, meaning, meaning, mapLit_rightValue hg]
  | .isNull _ _ => rfl
  | .range _ lo hi => by rw [mapLit, meaning, meaning, hg, hg]
  | .isIn _ _ items => by rw [mapLit, meaning, meaning, Arith.mapLits_values hg]
  | .contains _ _ items => by rw [mapLit, meaning, meaning, Arith.mapLits_values hg]
  | .notField _ => rfl
  | .not c => by rw [mapLit, meaning, meaning, mapLit_meaning hg env d df c]
  | .group c => by rw [mapLit, meaning, meaning, mapLit_meaning hg env d df c]
  | .conn _ l r => by
    rw [mapLit, meaning, meaning, mapLit_meaning hg env d df l, mapLit_meaning hg env d df r]

end Spec.Cond

theorem relit_writes (hg : SameLit g) {c : Cond} {s s' : JStr} (h : Writes s c)
    (h' : Renders (c.mapLit g).lexemes s') : Writes s' (c.mapLit g) :=
  ⟨Cond.mapLit_valid hg c h.valid, Cond.mapLit_grouped g c h.grouped,
    by rw [Cond.mapLit_readable]; exact h.readable, h'⟩

theorem relit_writesArith (hg : SameLit g) {e : Arith} {s s' : JStr} (h : WritesArith s e)
    (h' : Renders (e.mapLit g).lexemes s') : WritesArith s' (e.mapLit g) :=
  ⟨Arith.mapLit_valid hg e h.valid, Arith.mapLit_grouped g e h.grouped,
    by rw [Arith.mapLit_readable]; exact h.readable, by rw [Arith.mapLit_isAtom]; exact h.compound, h'⟩

end BoolParser
