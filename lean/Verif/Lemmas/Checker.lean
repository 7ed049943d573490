import Verif.Spec.Expr
import Verif.Spec.Fragment
import Verif.Util.KRfl
import Verif.Lemmas.Digits
/-!
# A checker for `Renders` (used by the concrete instances beside the theorems)
-/

namespace BoolParser
open Spec

/-- All spellings of a lexeme. -/
def spellings (l : JStr) : List JStr := l :: (otherSpellings.filter (fun p => p.1 == l)).map Prod.snd

/-- Does the text consist of the lexemes? -/
def rendersB : List JStr → JStr → Bool
  | [], s => s.all isBlank
  | l :: ls, s =>
    (spellings l).any fun l' =>
      l'.isPrefixOf (s.dropWhile isBlank) && !runsInto l' ((s.dropWhile isBlank).drop l'.length)
        && rendersB ls ((s.dropWhile isBlank).drop l'.length)

theorem spellings_same {l l' : JStr} (h : l' ∈ spellings l) : SameLexeme l l' := by
  rcases List.mem_cons.mp h with h | h
  · exact .inl h
  · obtain ⟨p, hp, rfl⟩ := List.mem_map.mp h
    obtain ⟨hq, he⟩ := List.mem_filter.mp hp
    have : p.1 = l := by simpa using he
    subst this
    exact .inr hq

theorem takeWhile_all (p : Char → Bool) (s : JStr) : (s.takeWhile p).all p = true := by
  induction s with
  | nil => rfl
  | cons c cs ih =>
    rw [List.takeWhile_cons]
    split
    · rw [List.all_cons, ih]; simpa
    · rfl

theorem renders_of {ls : List JStr} {s : JStr} (h : rendersB ls s = true) : Renders ls s := by
  induction ls generalizing s with
  | nil => exact ⟨[], .nil, .nil h⟩
  | cons l ls ih =>
    rw [rendersB, List.any_eq_true] at h
    obtain ⟨l', hm, h⟩ := h
    rw [Bool.and_eq_true, Bool.and_eq_true] at h
    obtain ⟨⟨h1, h2⟩, h3⟩ := h
    obtain ⟨ls', f1, f2⟩ := ih h3
    refine ⟨l' :: ls', .cons (spellings_same hm) f1, ?_⟩
    obtain ⟨r, hr⟩ := List.isPrefixOf_iff_prefix.mp h1
    rw [← hr] at f2 h2
    simp only [List.drop_left] at f2 h2
    have e : s = s.takeWhile isBlank ++ l' ++ r := by
      rw [List.append_assoc, hr, List.takeWhile_append_dropWhile]
    rw [e]
    refine .cons ?_ f2 (by simpa using h2)
    exact takeWhile_all _ _

/-! ### Deciding well-formedness -/

mutual
def decAValid : (e : Arith) → Decidable e.Valid
  | .field f => by unfold Arith.Valid; infer_instance
  | .lit l => by unfold Arith.Valid; infer_instance
  | .group e => by unfold Arith.Valid; exact decAValid e
  | .op _ l r => by unfold Arith.Valid; exact @instDecidableAnd _ _ (decAValid l) (decAValid r)
  | .neg e => by unfold Arith.Valid; exact decAValid e
  | .call _ args => by
    unfold Arith.Valid
    exact @instDecidableAnd _ _ (match args with
      | [] => isFalse (fun h => h rfl)
      | _ :: _ => isTrue (by intro h; cases h)) (decAValids args)
def decAValids : (es : List Arith) → Decidable (Arith.AllValid es)
  | [] => by unfold Arith.AllValid; exact isTrue trivial
  | e :: es => by unfold Arith.AllValid; exact @instDecidableAnd _ _ (decAValid e) (decAValids es)
end

mutual
def decAGrouped : (e : Arith) → Decidable e.Grouped
  | .field f => by unfold Arith.Grouped; infer_instance
  | .lit l => by unfold Arith.Grouped; infer_instance
  | .group e => by unfold Arith.Grouped; exact decAGrouped e
  | .op _ l r => by
    unfold Arith.Grouped
    exact @instDecidableAnd _ _ (decAGrouped l) (@instDecidableAnd _ _ (decAGrouped r) inferInstance)
  | .neg e => by unfold Arith.Grouped; exact @instDecidableAnd _ _ (decAGrouped e) inferInstance
  | .call _ args => by unfold Arith.Grouped; exact decAGroupeds args
def decAGroupeds : (es : List Arith) → Decidable (Arith.AllGrouped es)
  | [] => by unfold Arith.AllGrouped; exact isTrue trivial
  | e :: es => by unfold Arith.AllGrouped; exact @instDecidableAnd _ _ (decAGrouped e) (decAGroupeds es)
end

instance (e : Arith) : Decidable e.Valid := decAValid e
instance (es : List Arith) : Decidable (Arith.AllValid es) := decAValids es
instance (e : Arith) : Decidable e.Grouped := decAGrouped e
instance (es : List Arith) : Decidable (Arith.AllGrouped es) := decAGroupeds es
instance decNonempty {α : Type} : (es : List α) → Decidable (es ≠ [])
  | [] => isFalse (fun h => h rfl)
  | _ :: _ => isTrue (by intro h; cases h)

def decCValid : (c : Cond) → Decidable c.Valid
  | .cmp o l r => by unfold Cond.Valid; infer_instance
  | .cmpD o r => by unfold Cond.Valid; infer_instance
  | .isNull f _ => by unfold Cond.Valid; infer_instance
  | .range f lo hi => by unfold Cond.Valid; infer_instance
  | .isIn f _ items => by unfold Cond.Valid; infer_instance
  | .contains f _ items => by unfold Cond.Valid; infer_instance
  | .notField f => by unfold Cond.Valid; infer_instance
  | .not c => by unfold Cond.Valid; exact decCValid c
  | .group c => by unfold Cond.Valid; exact decCValid c
  | .conn _ l r => by unfold Cond.Valid; exact @instDecidableAnd _ _ (decCValid l) (decCValid r)

def decCGrouped : (c : Cond) → Decidable c.Grouped
  | .cmp o l r => by unfold Cond.Grouped; infer_instance
  | .cmpD o r => by unfold Cond.Grouped; infer_instance
  | .isNull f _ => by unfold Cond.Grouped; infer_instance
  | .range f lo hi => by unfold Cond.Grouped; infer_instance
  | .isIn f _ items => by unfold Cond.Grouped; infer_instance
  | .contains f _ items => by unfold Cond.Grouped; infer_instance
  | .notField f => by unfold Cond.Grouped; infer_instance
  | .not c => by unfold Cond.Grouped; exact @instDecidableAnd _ _ (decCGrouped c) inferInstance
  | .group c => by unfold Cond.Grouped; exact decCGrouped c
  | .conn _ l r => by
    unfold Cond.Grouped
    exact @instDecidableAnd _ _ (decCGrouped l) (@instDecidableAnd _ _ (decCGrouped r) inferInstance)

instance (c : Cond) : Decidable c.Valid := decCValid c
instance (c : Cond) : Decidable c.Grouped := decCGrouped c

/-- Check that a text writes a condition. -/
def writesB (s : JStr) (c : Cond) : Bool :=
  decide c.Valid && (decide c.Grouped && (c.readable .nothing && rendersB c.lexemes s))

theorem writes_of {s : JStr} {c : Cond} (h : writesB s c = true) : Writes s c := by
  unfold writesB at h
  simp only [Bool.and_eq_true, decide_eq_true_eq] at h
  exact ⟨h.1, h.2.1, h.2.2.1, renders_of h.2.2.2⟩

/-- Check that a text writes a compound arithmetic expression. -/
def writesArithB (s : JStr) (e : Arith) : Bool :=
  decide e.Valid && (decide e.Grouped && (e.readable false && (!e.isAtom && rendersB e.lexemes s)))

theorem writesArith_of {s : JStr} {e : Arith} (h : writesArithB s e = true) : WritesArith s e := by
  unfold writesArithB at h
  simp only [Bool.and_eq_true, decide_eq_true_eq, Bool.not_eq_true'] at h
  exact ⟨h.1, h.2.1, h.2.2.1, h.2.2.2.1, renders_of h.2.2.2.2⟩

/-! A first use: keywords in lower case, irregular white space. -/

example : Writes j!"a>=5 and (not(b = 'x  y')  || c<  d )"
    (.conn true (.cmp .ge (.field ['a']) (.lit (.int ['5'])))
      (.group (.conn false (.not (.group (.cmp .eq (.field ['b']) (.lit (.str '\'' j!"x  y")))))
        (.cmp .lt (.field ['c']) (.field ['d']))))) := writes_of (by krfl)

example : WritesArith j!"(a+5) * MIN(b, 3.25)-1"
    (.op .sub (.op .mul (.group (.op .add (.field ['a']) (.lit (.int ['5']))))
      (.call .min [.field ['b'], .lit (.dec ['3'] j!"25")])) (.lit (.int ['1']))) := writesArith_of (by krfl)

end BoolParser
