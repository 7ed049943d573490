import Verif.Lemmas.Meaning
import Verif.Spec.Fragment
/-!
# The basic fragment is always understood
-/

namespace BoolParser
open Spec

theorem Spec.Writes.eval {s : JStr} {c : Cond} (h : Writes s c) (env : Env) (d : Data) {df : Option JStr}
    (hdf : DefaultOk df) : evaluate env s d df = .ofResult (c.meaning env d df) :=
  evaluate_renders h.valid h.grouped h.readable h.renders env d df hdf

theorem Spec.WritesArith.eval {s : JStr} {e : Arith} (h : WritesArith s e) (env : Env) (d : Data) :
    evaluateArith env s d = .ofResult (e.value env d) :=
  evaluateArith_renders h.valid h.grouped h.readable h.compound h.renders env d

theorem basic_asLeft : (c : Cond) → c.basic = true → c.asLeft = .test
  | .cmp _ _ _, _ => rfl
  | .not _, _ => rfl
  | .group c, h => by rw [Cond.asLeft]; exact basic_asLeft c (by rw [Cond.basic] at h; exact h)
  | .conn _ _ _, _ => rfl

theorem atom_tidy {e : Arith} (h : e.isAtom = true) : e.tidy = true := by
  cases e <;> first | rfl | cases h

theorem basic_tidy : (c : Cond) → c.basic = true → c.tidy = true
  | .cmp _ l r, h => by
    rw [Cond.basic, Bool.and_eq_true] at h
    simp [Cond.tidy, h.1, atom_tidy h.1, atom_tidy h.2]
  | .not c, h => by rw [Cond.tidy]; exact basic_tidy c (by rw [Cond.basic] at h; exact h)
  | .group c, h => by rw [Cond.tidy]; exact basic_tidy c (by rw [Cond.basic] at h; exact h)
  | .conn _ l r, h => by
    rw [Cond.basic, Bool.and_eq_true] at h
    rw [Cond.tidy, basic_tidy l h.1, basic_tidy r h.2]; rfl

theorem basic_readable : (c : Cond) → c.basic = true → ∀ left, left ≠ .membership → c.readable left = true
  | .cmp _ l r, h, left, hl => by
    rw [Cond.basic] at h
    rw [Cond.readable, if_pos h]; simpa using hl
  | .not c, h, left, hl => by
    rw [Cond.readable]; exact basic_readable c (by rw [Cond.basic] at h; exact h) left hl
  | .group c, h, left, hl => by
    rw [Cond.readable]; exact basic_readable c (by rw [Cond.basic] at h; exact h) left hl
  | .conn _ l r, h, left, hl => by
    rw [Cond.basic, Bool.and_eq_true] at h
    rw [Cond.readable, basic_readable l h.1 left hl, basic_tidy r h.2, basic_asLeft l h.1,
      basic_readable r h.2 .test (by decide)]; rfl

theorem basic_writes {c : Cond} (hb : c.basic = true) (hv : c.Valid) (hg : c.Grouped) {s : JStr}
    (hs : Renders c.lexemes s) : Writes s c :=
  ⟨hv, hg, basic_readable c hb .nothing (by decide), hs⟩

theorem abasic_tidy : (e : Arith) → e.basic = true → e.tidy = true
  | .field _, _ => rfl
  | .lit _, _ => rfl
  | .group e, h => by
    rw [Arith.basic, Bool.and_eq_true] at h
    rw [Arith.tidy]; exact abasic_tidy e h.2
  | .op _ l r, h => by
    rw [Arith.basic, Bool.and_eq_true] at h
    rw [Arith.tidy, abasic_tidy l h.1, abasic_tidy r h.2]; rfl

theorem abasic_readable : (e : Arith) → e.basic = true → ∀ a, e.readable a = true
  | .field _, _, _ => rfl
  | .lit _, _, _ => rfl
  | .group e, h, a => by
    rw [Arith.basic, Bool.and_eq_true] at h
    rw [Arith.readable, h.1, abasic_readable e h.2 a]; rfl
  | .op _ l r, h, a => by
    rw [Arith.basic, Bool.and_eq_true] at h
    rw [Arith.readable, abasic_readable l h.1, abasic_readable r h.2, abasic_tidy r h.2]; simp

theorem abasic_writes {e : Arith} (hb : e.basic = true) (ha : e.isAtom = false) (hv : e.Valid)
    (hg : e.Grouped) {s : JStr} (hs : Renders e.lexemes s) : WritesArith s e :=
  ⟨hv, hg, abasic_readable e hb false, ha, hs⟩

/-- What is understood after something is understood at the beginning. -/
theorem readable_first : (c : Cond) → ∀ left, c.readable left = true → c.readable .nothing = true
  | .cmp _ l r, left, h => by
    rw [Cond.readable] at h ⊢
    split
    · rfl
    · rename_i hn
      rw [if_neg hn] at h; exact h
  | .cmpD _ r, left, h => by
    rw [Cond.readable] at h ⊢
    split
    · rfl
    · rename_i hn
      rw [if_neg hn] at h; exact h
  | .isNull _ _, _, _ => rfl
  | .range _ _ _, _, _ => rfl
  | .isIn _ _ _, _, h => h
  | .contains _ _ _, _, h => h
  | .notField _, _, _ => rfl
  | .not c, left, h => by rw [Cond.readable] at h ⊢; exact readable_first c left h
  | .group c, left, h => by rw [Cond.readable] at h ⊢; exact readable_first c left h
  | .conn _ l r, left, h => by
    rw [Cond.readable, Bool.and_eq_true] at h ⊢
    exact ⟨readable_first l left h.1, h.2⟩

end BoolParser
