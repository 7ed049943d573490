import Verif.Spec.Least
import Verif.Lemmas.Ladder
import Verif.Lemmas.CondNode
/-!
# The fewest parentheses
-/

namespace BoolParser
open Spec

theorem least_level (e : Arith) : e.least.level = e.level := by cases e <;> simp only [Arith.least, Arith.level]
theorem least_isAtom (e : Arith) : e.least.isAtom = e.isAtom := by cases e <;> simp only [Arith.least, Arith.isAtom]

theorem wrap_node (b : Bool) (e : Arith) : (Arith.wrap b e).node = e.node := by
  cases b
  · rfl
  · show (Arith.group e).node = _; rw [Arith.node]

theorem wrap_value (env : Env) (d : Data) (b : Bool) (e : Arith) : (Arith.wrap b e).value env d = e.value env d := by
  cases b
  · rfl
  · show (Arith.group e).value env d = _; rw [Arith.value]

theorem wrap_items (b : Bool) (e : Arith) : (Arith.wrap b e).items = e.items := by
  cases b
  · rfl
  · show (Arith.group e).items = _; rw [Arith.items]

theorem wrap_tidy (b : Bool) (e : Arith) : (Arith.wrap b e).tidy = e.tidy := by cases b <;> rfl
theorem wrap_isOperation (b : Bool) (e : Arith) : (Arith.wrap b e).isOperation = e.isOperation := by cases b <;> rfl

/-- Only compounds are wrapped. -/
theorem level_compound {e : Arith} {k : Nat} (hk : k ≤ 16) (h : e.level < k) : e.isAtom = false := by
  cases e <;> first | rfl | (simp only [Arith.level] at h; omega)

theorem lwrap_isAtom {k : Nat} (hk : k ≤ 16) (e : Arith) :
    (Arith.wrap (decide (e.level < k)) e.least).isAtom = e.isAtom := by
  by_cases h : e.level < k
  · rw [decide_eq_true h, level_compound hk h]; rfl
  · rw [decide_eq_false h]; exact least_isAtom e

theorem lwrap_level {k : Nat} (hk : k ≤ 16) (e : Arith) : k ≤ (Arith.wrap (decide (e.level < k)) e.least).level := by
  by_cases h : e.level < k
  · rw [decide_eq_true h]; exact hk
  · rw [decide_eq_false h, Arith.wrap, if_neg (by simp), least_level]; omega

theorem lwrap_readable {k : Nat} (hk : k ≤ 16) (e : Arith) (after : Bool) :
    (Arith.wrap (decide (e.level < k)) e.least).readable after = e.least.readable after := by
  by_cases h : e.level < k
  · rw [decide_eq_true h, Arith.wrap, if_pos rfl, Arith.readable, least_isAtom, level_compound hk h]; rfl
  · rw [decide_eq_false h]; rfl

mutual
theorem least_valid : (e : Arith) → e.Valid → e.least.Valid
  | .field _, h => by rw [Arith.least]; exact h
  | .lit _, h => by rw [Arith.least]; exact h
  | .group e, h => by
    rw [Arith.Valid] at h
    rw [Arith.least, Arith.Valid]; exact least_valid e h
  | .op o l r, h => by
    rw [Arith.Valid] at h
    rw [Arith.least, Arith.Valid]
    exact ⟨wrap_valid (least_valid l h.1), wrap_valid (least_valid r h.2)⟩
  | .neg e, h => by
    rw [Arith.Valid] at h
    rw [Arith.least, Arith.Valid]; exact wrap_valid (least_valid e h)
  | .call f args, h => by
    rw [Arith.Valid] at h
    rw [Arith.least, Arith.Valid]
    refine ⟨?_, leasts_valid args h.2⟩
    cases args with
    | nil => exact h.1
    | cons e es => rw [Arith.leasts]; simp
theorem leasts_valid : (es : List Arith) → Arith.AllValid es → Arith.AllValid (Arith.leasts es)
  | [], _ => by rw [Arith.leasts, Arith.AllValid]; trivial
  | e :: es, h => by
    rw [Arith.AllValid] at h
    rw [Arith.leasts, Arith.AllValid]; exact ⟨least_valid e h.1, leasts_valid es h.2⟩
end

mutual
theorem least_grouped : (e : Arith) → e.least.Grouped
  | .field _ => by rw [Arith.least, Arith.Grouped]; trivial
  | .lit _ => by rw [Arith.least, Arith.Grouped]; trivial
  | .group e => by rw [Arith.least, Arith.Grouped]; exact least_grouped e
  | .op o l r => by
    have hb := strength_bounds o
    rw [Arith.least, Arith.Grouped]
    exact ⟨wrap_grouped (least_grouped l), wrap_grouped (least_grouped r), lwrap_level (by omega) l,
      lwrap_level (by omega) r⟩
  | .neg e => by
    rw [Arith.least, Arith.Grouped]
    exact ⟨wrap_grouped (least_grouped e), lwrap_level (by omega) e⟩
  | .call f args => by rw [Arith.least, Arith.Grouped]; exact leasts_grouped args
theorem leasts_grouped : (es : List Arith) → Arith.AllGrouped (Arith.leasts es)
  | [] => by rw [Arith.leasts, Arith.AllGrouped]; trivial
  | e :: es => by rw [Arith.leasts, Arith.AllGrouped]; exact ⟨least_grouped e, leasts_grouped es⟩
end

mutual
theorem least_node : (e : Arith) → e.least.node = e.node
  | .field _ => by rw [Arith.least]
  | .lit _ => by rw [Arith.least]
  | .group e => by rw [Arith.least, Arith.node, Arith.node, least_node e]
  | .op o l r => by rw [Arith.least, Arith.node, Arith.node, wrap_node, wrap_node, least_node l, least_node r]
  | .neg e => by rw [Arith.least, Arith.node, Arith.node, wrap_node, least_node e]
  | .call f args => by rw [Arith.least, Arith.node, Arith.node, leasts_nodes args]
theorem leasts_nodes : (es : List Arith) → Arith.nodes (Arith.leasts es) = Arith.nodes es
  | [] => by rw [Arith.leasts]
  | e :: es => by rw [Arith.leasts, Arith.nodes, Arith.nodes, least_node e, leasts_nodes es]
end

mutual
theorem least_value (env : Env) (d : Data) : (e : Arith) → e.least.value env d = e.value env d
  | .field _ => by rw [Arith.least]
  | .lit _ => by rw [Arith.least]
  | .group e => by rw [Arith.least, Arith.value, Arith.value, least_value env d e]
  | .op o l r => by
    rw [Arith.least, Arith.value, Arith.value, wrap_value, wrap_value, least_value env d l, least_value env d r]
  | .neg e => by rw [Arith.least, Arith.value, Arith.value, wrap_value, least_value env d e]
  | .call f args => by rw [Arith.least, Arith.value, Arith.value, leasts_values env d args]
theorem leasts_values (env : Env) (d : Data) : (es : List Arith) →
    Arith.values env d (Arith.leasts es) = Arith.values env d es
  | [] => by rw [Arith.leasts]
  | e :: es => by rw [Arith.leasts, Arith.values, Arith.values, least_value env d e, leasts_values env d es]
end

mutual
theorem least_items : (e : Arith) → e.least.items = e.items
  | .field _ => by rw [Arith.least]
  | .lit _ => by rw [Arith.least]
  | .group e => by rw [Arith.least, Arith.items, Arith.items, least_items e]
  | .op o l r => by rw [Arith.least, Arith.items, Arith.items, wrap_items, wrap_items, least_items l, least_items r]
  | .neg e => by rw [Arith.least, Arith.items, Arith.items, wrap_items, least_items e]
  | .call f args => by rw [Arith.least, Arith.items, Arith.items, leasts_items args]
theorem leasts_items : (es : List Arith) → Arith.itemsAll (Arith.leasts es) = Arith.itemsAll es
  | [] => by rw [Arith.leasts]
  | e :: es => by rw [Arith.leasts, Arith.itemsAll, Arith.itemsAll, least_items e, leasts_items es]
end

theorem least_bare : (e : Arith) → e.least.bare = e.bare
  | .field _ => by rw [Arith.least]
  | .lit _ => by rw [Arith.least]
  | .group e => by rw [Arith.least, Arith.bare, Arith.bare, least_bare e]
  | .op o l r => by rw [Arith.least]; rfl
  | .neg e => by rw [Arith.least]; rfl
  | .call f args => by rw [Arith.least]; rfl

theorem leasts_atoms : (es : List Arith) → (Arith.leasts es).all Arith.isAtom = es.all Arith.isAtom
  | [] => by rw [Arith.leasts]
  | e :: es => by rw [Arith.leasts, List.all_cons, List.all_cons, least_isAtom, leasts_atoms es]

theorem least_tidy : (e : Arith) → e.least.tidy = e.tidy
  | .field _ => by rw [Arith.least]
  | .lit _ => by rw [Arith.least]
  | .group e => by rw [Arith.least, Arith.tidy, Arith.tidy, least_tidy e]
  | .op o l r => by rw [Arith.least, Arith.tidy, Arith.tidy, wrap_tidy, wrap_tidy, least_tidy l, least_tidy r]
  | .neg e => by rw [Arith.least, Arith.tidy, Arith.tidy, wrap_tidy, least_tidy e]
  | .call f args => by rw [Arith.least, Arith.tidy, Arith.tidy, leasts_atoms]

theorem least_isOperation : (e : Arith) → e.least.isOperation = e.isOperation
  | .field _ => by rw [Arith.least]
  | .lit _ => by rw [Arith.least]
  | .group e => by rw [Arith.least, Arith.isOperation, Arith.isOperation, least_isOperation e]
  | .op o l r => by rw [Arith.least]; rfl
  | .neg e => by rw [Arith.least]; rfl
  | .call f args => by rw [Arith.least]; rfl

mutual
theorem least_simple : (e : Arith) → e.least.simpleArg = e.simpleArg
  | .field _ => by rw [Arith.least]
  | .lit _ => by rw [Arith.least]
  | .group e => by rw [Arith.least, Arith.simpleArg, Arith.simpleArg] <;> simp
  | .op o l r => by
    have hb := strength_bounds o
    rw [Arith.least, Arith.simpleArg, Arith.simpleArg, lwrap_isAtom (by omega), lwrap_isAtom (by omega)]
  | .neg e => by rw [Arith.least, Arith.simpleArg, Arith.simpleArg] <;> simp
  | .call f args => by rw [Arith.least, Arith.simpleArg, Arith.simpleArg, leasts_simple args]
theorem leasts_simple : (es : List Arith) → Arith.simpleArgs (Arith.leasts es) = Arith.simpleArgs es
  | [] => by rw [Arith.leasts]
  | e :: es => by rw [Arith.leasts, Arith.simpleArgs, Arith.simpleArgs, least_simple e, leasts_simple es]
end

theorem least_readable : (e : Arith) → ∀ after, e.least.readable after = e.readable after
  | .field _, _ => by rw [Arith.least]
  | .lit _, _ => by rw [Arith.least]
  | .group e, after => by rw [Arith.least, Arith.readable, Arith.readable, least_isAtom, least_readable e]
  | .op o l r, after => by
    have hb := strength_bounds o
    rw [Arith.least, Arith.readable, Arith.readable, lwrap_readable (by omega), lwrap_readable (by omega),
      lwrap_isAtom (by omega), lwrap_isAtom (by omega), wrap_isOperation, wrap_tidy, least_readable l, least_readable r,
      least_isOperation, least_tidy]
  | .neg e, after => by
    rw [Arith.least, Arith.readable, Arith.readable, lwrap_readable (by omega), lwrap_isAtom (by omega), wrap_isOperation,
      least_readable e, least_isOperation]
  | .call f args, after => by rw [Arith.least, Arith.readable, Arith.readable, leasts_simple]

/-! ### Conditions -/

theorem cleast_isConn (c : Cond) : c.least.isConn = c.isConn := by cases c <;> rfl
theorem cleast_tight (c : Cond) : c.least.tight = c.tight := by cases c <;> rfl

theorem lwrap_null {k : Nat} (hk : k ≤ 16) (e : Arith) :
    Cond.isNullWord (Arith.wrap (decide (e.level < k)) e.least) = Cond.isNullWord e := by
  by_cases h : e.level < k
  · have := level_compound hk h
    rw [decide_eq_true h]
    cases e <;> first | rfl | cases this
  · rw [decide_eq_false h]
    cases e <;> simp only [Arith.wrap, Arith.least, Cond.isNullWord, Bool.false_eq_true, if_false]

theorem leasts_ne {es : List Arith} (h : es ≠ []) : Arith.leasts es ≠ [] := by
  cases es with
  | nil => exact h
  | cons e es => rw [Arith.leasts]; simp

theorem cwrap_valid {b : Bool} {c : Cond} (h : c.Valid) : (Cond.wrap b c).Valid := by cases b <;> exact h
theorem cwrap_grouped {b : Bool} {c : Cond} (h : c.Grouped) : (Cond.wrap b c).Grouped := by cases b <;> exact h
theorem cwrap_items (b : Bool) (c : Cond) : (Cond.wrap b c).items = c.items := by cases b <;> rfl
theorem cwrap_default (b : Bool) (c : Cond) : (Cond.wrap b c).usesDefault = c.usesDefault := by cases b <;> rfl
theorem cwrap_meaning (env : Env) (d : Data) (df : Option JStr) (b : Bool) (c : Cond) :
    (Cond.wrap b c).meaning env d df = c.meaning env d df := by
  cases b
  · rfl
  · show (Cond.group c).meaning env d df = _; rw [Cond.meaning]
theorem cwrap_readable (b : Bool) (c : Cond) (left : Cond.Left) : (Cond.wrap b c).readable left = c.readable left := by
  cases b
  · rfl
  · show (Cond.group c).readable left = _; rw [Cond.readable]
theorem cwrap_tidy (b : Bool) (c : Cond) : (Cond.wrap b c).tidy = c.tidy := by cases b <;> rfl

theorem cleast_valid : (c : Cond) → c.Valid → c.least.Valid
  | .cmp o l r, h => by
    rw [Cond.least]
    refine ⟨wrap_valid (least_valid l h.1), wrap_valid (least_valid r h.2.1), fun ho => ?_⟩
    rw [lwrap_null (by omega), lwrap_null (by omega)]
    exact h.2.2 ho
  | .cmpD o r, h => by
    rw [Cond.least]
    refine ⟨wrap_valid (least_valid r h.1), fun ho => ?_⟩
    rw [lwrap_null (by omega)]
    exact h.2 ho
  | .isNull _ _, h => h
  | .range _ _ _, h => h
  | .isIn _ _ es, h => ⟨h.1, leasts_ne h.2.1, leasts_valid es h.2.2⟩
  | .contains _ _ es, h => ⟨h.1, leasts_ne h.2.1, leasts_valid es h.2.2⟩
  | .notField _, h => h
  | .not c, h => by rw [Cond.least]; exact cwrap_valid (cleast_valid c h)
  | .group c, h => by rw [Cond.least]; exact cleast_valid c h
  | .conn _ l r, h => by rw [Cond.least]; exact ⟨cleast_valid l h.1, cwrap_valid (cleast_valid r h.2)⟩

theorem cleast_grouped : (c : Cond) → c.least.Grouped
  | .cmp o l r => by
    rw [Cond.least]
    exact ⟨wrap_grouped (least_grouped l), wrap_grouped (least_grouped r), lwrap_level (by omega) l, lwrap_level (by omega) r⟩
  | .cmpD o r => by
    rw [Cond.least]
    exact ⟨wrap_grouped (least_grouped r), lwrap_level (by omega) r⟩
  | .isNull _ _ => trivial
  | .range _ _ _ => trivial
  | .isIn _ _ es => leasts_grouped es
  | .contains _ _ es => leasts_grouped es
  | .notField _ => trivial
  | .not c => by
    rw [Cond.least]
    refine ⟨cwrap_grouped (cleast_grouped c), ?_⟩
    cases h : c.tight
    · rfl
    · rw [Bool.not_true, Cond.wrap, if_neg (by simp), cleast_tight]; exact h
  | .group c => cleast_grouped c
  | .conn _ l r => by
    rw [Cond.least]
    refine ⟨cleast_grouped l, cwrap_grouped (cleast_grouped r), ?_⟩
    cases h : r.isConn
    · rw [Cond.wrap, if_neg (by simp), cleast_isConn]; exact h
    · rfl

theorem cleast_items : (c : Cond) → c.least.items = c.items
  | .cmp o l r => by rw [Cond.least, Cond.items, Cond.items, wrap_items, wrap_items, least_items, least_items]
  | .cmpD o r => by rw [Cond.least, Cond.items, Cond.items, wrap_items, least_items]
  | .isNull _ _ => rfl
  | .range _ _ _ => rfl
  | .isIn _ _ es => by rw [Cond.least, Cond.items, Cond.items, leasts_items]
  | .contains _ _ es => by rw [Cond.least, Cond.items, Cond.items, leasts_items]
  | .notField _ => rfl
  | .not c => by rw [Cond.least, Cond.items, Cond.items, cwrap_items, cleast_items c]
  | .group c => by rw [Cond.least, Cond.items, Cond.items, cleast_items c]
  | .conn _ l r => by rw [Cond.least, Cond.items, Cond.items, cwrap_items, cleast_items l, cleast_items r]

theorem cleast_default : (c : Cond) → c.least.usesDefault = c.usesDefault
  | .cmp o l r => rfl
  | .cmpD o r => rfl
  | .isNull _ _ => rfl
  | .range _ _ _ => rfl
  | .isIn _ _ es => rfl
  | .contains _ _ es => rfl
  | .notField _ => rfl
  | .not c => by rw [Cond.least, Cond.usesDefault, Cond.usesDefault, cwrap_default, cleast_default c]
  | .group c => by rw [Cond.least, Cond.usesDefault, Cond.usesDefault, cleast_default c]
  | .conn _ l r => by
    rw [Cond.least, Cond.usesDefault, Cond.usesDefault, cwrap_default, cleast_default l, cleast_default r]

theorem cleast_distinct {c : Cond} {df : Option JStr} (h : c.Distinct df) : c.least.Distinct df :=
  ⟨by rw [cleast_items]; exact h.once, by rw [cleast_items]; exact h.null,
    by rw [cleast_items, cleast_default]; exact h.dflt⟩

theorem lwrap_right (env : Env) (d : Data) {k : Nat} (hk : k ≤ 16) (e : Arith) :
    Cond.rightValue env d (Arith.wrap (decide (e.level < k)) e.least) = Cond.rightValue env d e := by
  by_cases h : e.level < k
  · have := level_compound hk h
    rw [decide_eq_true h]
    show Cond.rightValue env d (.group e.least) = _
    have h2 : Cond.rightValue env d e = e.value env d := by
      cases e <;> first | rfl | cases this
    rw [h2, ← least_value env d e]
    show (Arith.group e.least).value env d = _
    rw [Arith.value]
  · rw [decide_eq_false h]
    show Cond.rightValue env d e.least = _
    have key : e.least.value env d = e.value env d := least_value env d e
    cases e with
    | field f => rw [Arith.least]
    | lit l => rw [Arith.least]
    | group e => rw [Arith.least] at key ⊢; exact key
    | op o l r => rw [Arith.least] at key ⊢; exact key
    | neg e => rw [Arith.least] at key ⊢; exact key
    | call f as => rw [Arith.least] at key ⊢; exact key

theorem cleast_meaning (env : Env) (d : Data) (df : Option JStr) : (c : Cond) →
    c.least.meaning env d df = c.meaning env d df
  | .cmp o l r => by
    rw [Cond.least, Cond.meaning, Cond.meaning, wrap_value, least_value, lwrap_right env d (by omega)]
  | .cmpD o r => by rw [Cond.least, Cond.meaning, Cond.meaning, lwrap_right env d (by omega)]
  | .isNull _ _ => rfl
  | .range _ _ _ => rfl
  | .isIn _ _ es => by rw [Cond.least, Cond.meaning, Cond.meaning, leasts_values]
  | .contains _ _ es => by rw [Cond.least, Cond.meaning, Cond.meaning, leasts_values]
  | .notField _ => rfl
  | .not c => by rw [Cond.least, Cond.meaning, Cond.meaning, cwrap_meaning, cleast_meaning env d df c]
  | .group c => by rw [Cond.least, Cond.meaning, Cond.meaning, cleast_meaning env d df c]
  | .conn b l r => by
    rw [Cond.least]
    cases b <;> simp only [Cond.meaning, cwrap_meaning, cleast_meaning env d df l, cleast_meaning env d df r]

theorem cleast_tidy : (c : Cond) → c.least.tidy = c.tidy
  | .cmp o l r => by
    rw [Cond.least, Cond.tidy, Cond.tidy, lwrap_isAtom (by omega), lwrap_isAtom (by omega), wrap_tidy, wrap_tidy, least_tidy,
      least_tidy]
  | .cmpD o r => by rw [Cond.least, Cond.tidy, Cond.tidy, wrap_tidy, least_tidy]
  | .isNull _ _ => rfl
  | .range _ _ _ => rfl
  | .isIn _ _ es => by rw [Cond.least, Cond.tidy, Cond.tidy, leasts_atoms]
  | .contains _ _ es => by rw [Cond.least, Cond.tidy, Cond.tidy, leasts_atoms]
  | .notField _ => rfl
  | .not c => by rw [Cond.least, Cond.tidy, Cond.tidy, cwrap_tidy, cleast_tidy c]
  | .group c => by rw [Cond.least, Cond.tidy, Cond.tidy, cleast_tidy c]
  | .conn _ l r => by rw [Cond.least, Cond.tidy, Cond.tidy, cwrap_tidy, cleast_tidy l, cleast_tidy r]

theorem cleast_asLeft : (c : Cond) → c.least.asLeft = c.asLeft
  | .cmp o l r => rfl
  | .cmpD o r => rfl
  | .isNull _ _ => rfl
  | .range _ _ _ => rfl
  | .isIn _ _ es => rfl
  | .contains _ _ es => rfl
  | .notField _ => rfl
  | .not c => rfl
  | .group c => by rw [Cond.least, Cond.asLeft, Cond.asLeft, cleast_asLeft c]
  | .conn _ l r => rfl

theorem lwrap_isCall {k : Nat} (hk : k ≤ 16) (e : Arith) :
    Cond.isCall (Arith.wrap (decide (e.level < k)) e.least) = Cond.isCall e := by
  by_cases h : e.level < k
  · rw [decide_eq_true h]
    cases e <;> first | rfl | (simp only [Arith.level] at h; omega)
  · rw [decide_eq_false h]
    cases e <;> simp only [Arith.wrap, Arith.least, Cond.isCall, Bool.false_eq_true, if_false]

theorem cleast_readable : (c : Cond) → ∀ left, c.least.readable left = c.readable left
  | .cmp o l r, left => by
    rw [Cond.least, Cond.readable, Cond.readable, lwrap_isAtom (by omega), lwrap_isAtom (by omega), lwrap_readable (by omega),
      lwrap_readable (by omega), lwrap_isCall (by omega), lwrap_isCall (by omega), least_readable, least_readable]
  | .cmpD o r, left => by
    rw [Cond.least, Cond.readable, Cond.readable, lwrap_isAtom (by omega), lwrap_readable (by omega), least_readable]
  | .isNull _ _, _ => rfl
  | .range _ _ _, _ => rfl
  | .isIn _ _ es, _ => by rw [Cond.least, Cond.readable, Cond.readable, leasts_simple]
  | .contains _ _ es, _ => by rw [Cond.least, Cond.readable, Cond.readable, leasts_simple]
  | .notField _, _ => rfl
  | .not c, left => by rw [Cond.least, Cond.readable, Cond.readable, cwrap_readable, cleast_readable c]
  | .group c, left => by rw [Cond.least, Cond.readable, Cond.readable, cleast_readable c]
  | .conn _ l r, left => by
    rw [Cond.least, Cond.readable, Cond.readable, cwrap_readable, cwrap_tidy, cleast_readable l, cleast_readable r,
      cleast_asLeft, cleast_tidy]

/-! ### No other parentheses will do with fewer words -/

/-- In parentheses, or as strong as without them. -/
theorem strip_level (e : Arith) : (∃ x, e = .group x) ∨ e.strip.level = e.level := by
  cases e
  case group x => exact .inl ⟨x, rfl⟩
  all_goals exact .inr (by simp only [Arith.strip, Arith.level])

theorem wrap_length (b : Bool) (e : Arith) :
    (Arith.wrap b e).lexemes.length = e.lexemes.length + (if b then 2 else 0) := by
  cases b
  · rfl
  · simp [Arith.wrap, Arith.lexemes]

theorem fewest_wrap {k : Nat} {e : Arith} (hk : k ≤ e.level) (h : e.strip.least.lexemes.length ≤ e.lexemes.length)
    (hg : ∀ x, e = .group x → e.strip.least.lexemes.length + 2 ≤ e.lexemes.length) :
    (Arith.wrap (decide (e.strip.level < k)) e.strip.least).lexemes.length ≤ e.lexemes.length := by
  rw [wrap_length]
  rcases strip_level e with ⟨x, hx⟩ | hl
  · have := hg x hx
    split <;> omega
  · rw [hl, if_neg (by simp; omega)]
    exact h

mutual
theorem fewest : (e : Arith) → e.Grouped → e.strip.least.lexemes.length ≤ e.lexemes.length
  | .field _, _ => Nat.le_refl _
  | .lit _, _ => Nat.le_refl _
  | .group e, h => by
    have := fewest e h
    simp only [Arith.strip, Arith.lexemes, List.length_cons, List.length_append]
    omega
  | .op o l r, h => by
    have hl := fewest_wrap (k := strength o) h.2.2.1 (fewest l h.1) (fun x hx => fewest_group l h.1 x hx)
    have hr := fewest_wrap (k := strength o + 1) h.2.2.2 (fewest r h.2.1) (fun x hx => fewest_group r h.2.1 x hx)
    simp only [Arith.strip, Arith.least, Arith.lexemes, List.length_cons, List.length_append] at hl hr ⊢
    omega
  | .neg e, h => by
    have he := fewest_wrap (k := 13) h.2 (fewest e h.1) (fun x hx => fewest_group e h.1 x hx)
    simp only [Arith.strip, Arith.least, Arith.lexemes, List.length_cons] at he ⊢
    omega
  | .call f args, h => by
    have := (fewest_args args h).1
    simp only [Arith.strip, Arith.least, Arith.lexemes, List.length_cons, List.length_append] at this ⊢
    omega
theorem fewest_group : (e : Arith) → e.Grouped → ∀ x, e = .group x →
    e.strip.least.lexemes.length + 2 ≤ e.lexemes.length
  | .group e, h, x, _ => by
    have := fewest e h
    simp only [Arith.strip, Arith.lexemes, List.length_cons, List.length_append, List.length_nil]
    omega
theorem fewest_args : (es : List Arith) → Arith.AllGrouped es →
    (Arith.argLexemes (Arith.leasts (Arith.strips es))).length ≤ (Arith.argLexemes es).length ∧
    (Arith.moreLexemes (Arith.leasts (Arith.strips es))).length ≤ (Arith.moreLexemes es).length
  | [], _ => ⟨Nat.le_refl _, Nat.le_refl _⟩
  | e :: es, h => by
    have he := fewest e h.1
    have hs := fewest_args es h.2
    simp only [Arith.strips, Arith.leasts, Arith.argLexemes, Arith.moreLexemes, List.length_cons, List.length_append]
    omega
end

theorem cwrap_length (b : Bool) (c : Cond) :
    (Cond.wrap b c).lexemes.length = c.lexemes.length + (if b then 2 else 0) := by
  cases b
  · rfl
  · simp [Cond.wrap, Cond.lexemes]

theorem fewest_cwrap {b : Bool} {c : Cond} (hb : (∃ x, c = .group x) ∨ b = false)
    (h : c.strip.least.lexemes.length ≤ c.lexemes.length)
    (hg : ∀ x, c = .group x → c.strip.least.lexemes.length + 2 ≤ c.lexemes.length) :
    (Cond.wrap b c.strip.least).lexemes.length ≤ c.lexemes.length := by
  rw [cwrap_length]
  rcases hb with ⟨x, hx⟩ | rfl
  · have := hg x hx
    split <;> omega
  · exact h

theorem fewest_arith {k : Nat} {e : Arith} (h : e.Grouped) (hk : k ≤ e.level) :
    (Arith.wrap (decide (e.strip.level < k)) e.strip.least).lexemes.length ≤ e.lexemes.length :=
  fewest_wrap hk (fewest e h) (fewest_group e h)

mutual
theorem cfewest : (c : Cond) → c.Grouped → c.strip.least.lexemes.length ≤ c.lexemes.length
  | .cmp o l r, h => by
    have hl := fewest_arith h.1 h.2.2.1
    have hr := fewest_arith h.2.1 h.2.2.2
    simp only [Cond.strip, Cond.least, Cond.lexemes, List.length_cons, List.length_append] at hl hr ⊢
    omega
  | .cmpD o r, h => by
    have hr := fewest_arith h.1 h.2
    simp only [Cond.strip, Cond.least, Cond.lexemes, List.length_cons] at hr ⊢
    omega
  | .isNull _ _, _ => Nat.le_refl _
  | .range _ _ _, _ => Nat.le_refl _
  | .isIn f ng items, h => by
    have := (fewest_args items h).1
    simp only [Cond.strip, Cond.least, Cond.lexemes, List.length_cons, List.length_append]
    omega
  | .contains f o items, h => by
    have := (fewest_args items h).1
    simp only [Cond.strip, Cond.least, Cond.lexemes, List.length_cons, List.length_append]
    omega
  | .notField _, _ => Nat.le_refl _
  | .not c, h => by
    have hc : (∃ x, c = .group x) ∨ (!c.strip.tight) = false := by
      have := h.2
      cases c
      case group x => exact .inl ⟨x, rfl⟩
      all_goals first | exact .inr rfl | cases this
    have := fewest_cwrap hc (cfewest c h.1) (cfewest_group c h.1)
    simp only [Cond.strip, Cond.least, Cond.lexemes, List.length_cons]
    omega
  | .group c, h => by
    have := cfewest c h
    simp only [Cond.strip, Cond.lexemes, List.length_cons, List.length_append]
    omega
  | .conn b l r, h => by
    have hc : (∃ x, r = .group x) ∨ r.strip.isConn = false := by
      have := h.2.2
      cases r
      case group x => exact .inl ⟨x, rfl⟩
      all_goals first | exact .inr rfl | cases this
    have hr := fewest_cwrap hc (cfewest r h.2.1) (cfewest_group r h.2.1)
    have hl := cfewest l h.1
    simp only [Cond.strip, Cond.least, Cond.lexemes, List.length_cons, List.length_append]
    omega
theorem cfewest_group : (c : Cond) → c.Grouped → ∀ x, c = .group x →
    c.strip.least.lexemes.length + 2 ≤ c.lexemes.length
  | .group c, h, x, _ => by
    have := cfewest c h
    simp only [Cond.strip, Cond.lexemes, List.length_cons, List.length_append, List.length_nil]
    omega
end

theorem wrap_strip (b : Bool) (e : Arith) : (Arith.wrap b e).strip = e.strip := by
  cases b
  · rfl
  · simp only [Arith.wrap, if_true, Arith.strip]

theorem cwrap_strip (b : Bool) (c : Cond) : (Cond.wrap b c).strip = c.strip := by cases b <;> rfl

mutual
theorem least_strip : (e : Arith) → e.least.strip = e.strip
  | .field _ => rfl
  | .lit _ => rfl
  | .group e => by simp only [Arith.least, Arith.strip, least_strip e]
  | .op o l r => by simp only [Arith.least, Arith.strip, wrap_strip, least_strip l, least_strip r]
  | .neg e => by simp only [Arith.least, Arith.strip, wrap_strip, least_strip e]
  | .call f args => by simp only [Arith.least, Arith.strip, leasts_strips args]
theorem leasts_strips : (es : List Arith) → Arith.strips (Arith.leasts es) = Arith.strips es
  | [] => rfl
  | e :: es => by simp only [Arith.leasts, Arith.strips, least_strip e, leasts_strips es]
end

theorem cleast_strip : (c : Cond) → c.least.strip = c.strip
  | .cmp o l r => by simp only [Cond.least, Cond.strip, wrap_strip, least_strip]
  | .cmpD o r => by simp only [Cond.least, Cond.strip, wrap_strip, least_strip]
  | .isNull _ _ => rfl
  | .range _ _ _ => rfl
  | .isIn _ _ items => by simp only [Cond.least, Cond.strip, leasts_strips]
  | .contains _ _ items => by simp only [Cond.least, Cond.strip, leasts_strips]
  | .notField _ => rfl
  | .not c => by simp only [Cond.least, Cond.strip, cwrap_strip, cleast_strip c]
  | .group c => by simp only [Cond.least, Cond.strip, cleast_strip c]
  | .conn b l r => by simp only [Cond.least, Cond.strip, cwrap_strip, cleast_strip l, cleast_strip r]

mutual
theorem strip_idem : (e : Arith) → e.strip.strip = e.strip
  | .field _ => rfl
  | .lit _ => rfl
  | .group e => by simp only [Arith.strip, strip_idem e]
  | .op o l r => by simp only [Arith.strip, strip_idem l, strip_idem r]
  | .neg e => by simp only [Arith.strip, strip_idem e]
  | .call f args => by simp only [Arith.strip, strips_idem args]
theorem strips_idem : (es : List Arith) → Arith.strips (Arith.strips es) = Arith.strips es
  | [] => rfl
  | e :: es => by simp only [Arith.strips, strip_idem e, strips_idem es]
end

theorem cstrip_idem : (c : Cond) → c.strip.strip = c.strip
  | .cmp o l r => by simp only [Cond.strip, strip_idem]
  | .cmpD o r => by simp only [Cond.strip, strip_idem]
  | .isNull _ _ => rfl
  | .range _ _ _ => rfl
  | .isIn _ _ items => by simp only [Cond.strip, strips_idem]
  | .contains _ _ items => by simp only [Cond.strip, strips_idem]
  | .notField _ => rfl
  | .not c => by simp only [Cond.strip, cstrip_idem c]
  | .group c => by simp only [Cond.strip, cstrip_idem c]
  | .conn b l r => by simp only [Cond.strip, cstrip_idem l, cstrip_idem r]

end BoolParser
