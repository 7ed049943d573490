import Verif.Lemmas.Paths
import Verif.Model.Api
/-!
# Evaluation depends on the mentioned fields only
-/

namespace BoolParser
open Spec

mutual
theorem value_agree (env : Env) {d d' : Data} : (e : Arith) →
    (∀ f ∈ e.fields, getValueFromMap f d = getValueFromMap f d') → e.value env d = e.value env d'
  | .field f, h => by
    rw [Arith.value, Arith.value, Arith.fieldValue, Arith.fieldValue, h f (by simp [Arith.fields])]
  | .lit _, _ => by rw [Arith.value, Arith.value]
  | .group e, h => by rw [Arith.value, Arith.value]; exact value_agree env e h
  | .op _ l r, h => by
    rw [Arith.fields] at h
    rw [Arith.value, Arith.value, value_agree env l (fun f hf => h f (by simp [hf])),
      value_agree env r (fun f hf => h f (by simp [hf]))]
  | .neg e, h => by rw [Arith.value, Arith.value, value_agree env e h]
  | .call _ args, h => by rw [Arith.value, Arith.value, values_agree env args h]
theorem values_agree (env : Env) {d d' : Data} : (es : List Arith) →
    (∀ f ∈ Arith.allFields es, getValueFromMap f d = getValueFromMap f d') →
    Arith.values env d es = Arith.values env d' es
  | [], _ => rfl
  | e :: es, h => by
    rw [Arith.allFields] at h
    rw [Arith.values, Arith.values, value_agree env e (fun f hf => h f (by simp [hf])),
      values_agree env es (fun f hf => h f (by simp [hf]))]
end

theorem rightValue_agree (env : Env) {d d' : Data} (e : Arith)
    (h : ∀ f ∈ e.fields, getValueFromMap f d = getValueFromMap f d') :
    Cond.rightValue env d e = Cond.rightValue env d' e := by
  cases e with
  | field f => simp only [Cond.rightValue, h f (by simp [Arith.fields])]
  | _ => exact value_agree env _ h

theorem fieldValue_agree {f : JStr} {d d' : Data} (h : getValueFromMap f d = getValueFromMap f d') :
    Arith.fieldValue f d = Arith.fieldValue f d' := by unfold Arith.fieldValue; rw [h]

theorem meaning_agree (env : Env) (df : Option JStr) {d d' : Data} : (c : Cond) →
    (∀ f ∈ c.fields df, getValueFromMap f d = getValueFromMap f d') → c.meaning env d df = c.meaning env d' df
  | .cmp _ l r, h => by
    rw [Cond.fields] at h
    rw [Cond.meaning, Cond.meaning, value_agree env l (fun f hf => h f (by simp [hf])),
      rightValue_agree env r (fun f hf => h f (by simp [hf]))]
  | .cmpD _ r, h => by
    rw [Cond.fields] at h
    have h0 : Cond.defaultValue df d = Cond.defaultValue df d' := by
      unfold Cond.defaultValue
      cases df with
      | none => rfl
      | some f => exact fieldValue_agree (h f (by simp))
    rw [Cond.meaning, Cond.meaning, h0, rightValue_agree env r (fun f hf => h f (by simp [hf]))]
  | .isNull f _, h => by rw [Cond.meaning, Cond.meaning, h f (by simp [Cond.fields])]
  | .range f _ _, h => by
    rw [Cond.meaning, Cond.meaning, fieldValue_agree (h f (by simp [Cond.fields]))]
  | .isIn f _ items, h => by
    rw [Cond.fields] at h
    rw [Cond.meaning, Cond.meaning, fieldValue_agree (h f (by simp)),
      values_agree env items (fun f hf => h f (by simp [hf]))]
  | .contains f _ items, h => by
    rw [Cond.fields] at h
    rw [Cond.meaning, Cond.meaning, fieldValue_agree (h f (by simp)),
      values_agree env items (fun f hf => h f (by simp [hf]))]
  | .notField f, h => by
    rw [Cond.meaning, Cond.meaning, fieldValue_agree (h f (by simp [Cond.fields]))]
  | .not c, h => by rw [Cond.meaning, Cond.meaning, meaning_agree env df c h]
  | .group c, h => by rw [Cond.meaning, Cond.meaning, meaning_agree env df c h]
  | .conn _ l r, h => by
    rw [Cond.fields] at h
    rw [Cond.meaning, Cond.meaning, meaning_agree env df l (fun f hf => h f (by simp [hf])),
      meaning_agree env df r (fun f hf => h f (by simp [hf]))]

mutual
theorem names_of_valid : (e : Arith) → e.Valid → ∀ f ∈ e.fields, IsName f
  | .field f, h => by intro g hg; rw [Arith.fields, List.mem_singleton] at hg; subst hg; exact h
  | .lit _, _ => by intro g hg; cases hg
  | .group e, h => names_of_valid e h
  | .op _ l r, h => by
    intro g hg; rw [Arith.fields] at hg
    rcases List.mem_append.mp hg with hg | hg
    · exact names_of_valid l h.1 g hg
    · exact names_of_valid r h.2 g hg
  | .neg e, h => names_of_valid e h
  | .call _ args, h => names_of_allValid args h.2
theorem names_of_allValid : (es : List Arith) → Arith.AllValid es → ∀ f ∈ Arith.allFields es, IsName f
  | [], _ => by intro g hg; cases hg
  | e :: es, h => by
    intro g hg; rw [Arith.allFields] at hg
    rcases List.mem_append.mp hg with hg | hg
    · exact names_of_valid e h.1 g hg
    · exact names_of_allValid es h.2 g hg
end

theorem cond_names {df : Option JStr} : (c : Cond) → c.Valid → ∀ f ∈ c.fields df, IsName f ∨ df = some f
  | .cmp _ l r, h => by
    intro g hg; rw [Cond.fields] at hg
    rcases List.mem_append.mp hg with hg | hg
    · exact .inl (names_of_valid l h.1 g hg)
    · exact .inl (names_of_valid r h.2.1 g hg)
  | .cmpD _ r, h => by
    intro g hg; rw [Cond.fields] at hg
    rcases List.mem_append.mp hg with hg | hg
    · right; cases df with
      | none => cases hg
      | some f => simp at hg; rw [hg]
    · exact .inl (names_of_valid r h.1 g hg)
  | .isNull f _, h => by intro g hg; simp [Cond.fields] at hg; subst hg; exact .inl h
  | .range f _ _, h => by intro g hg; simp [Cond.fields] at hg; subst hg; exact .inl h.1
  | .isIn f _ items, h => by
    intro g hg; rw [Cond.fields] at hg
    rcases List.mem_cons.mp hg with rfl | hg
    · exact .inl h.1
    · exact .inl (names_of_allValid items h.2.2 g hg)
  | .contains f _ items, h => by
    intro g hg; rw [Cond.fields] at hg
    rcases List.mem_cons.mp hg with rfl | hg
    · exact .inl h.1
    · exact .inl (names_of_allValid items h.2.2 g hg)
  | .notField f, h => by intro g hg; simp [Cond.fields] at hg; subst hg; exact .inl h
  | .not c, h => cond_names c h
  | .group c, h => cond_names c h
  | .conn _ l r, h => by
    intro g hg; rw [Cond.fields] at hg
    rcases List.mem_append.mp hg with hg | hg
    · exact cond_names l h.1 g hg
    · exact cond_names r h.2 g hg

/-! ### Nodes -/

mutual
/-- Names a node looks up: field names, and the texts of literals (a literal where a boolean is expected is
looked up as a field). -/
def Node.lookups : Node → List JStr
  | .cmp l r _ _ => l.lookups ++ r.lookups
  | .range f _ _ _ _ => [f]
  | .inn f items => f :: Node.allLookups items
  | .array f _ items => f :: Node.allLookups items
  | .unary _ v => [v.text]
  | .and_ l r => l.lookups ++ r.lookups
  | .or_ l r => l.lookups ++ r.lookups
  | .not_ l => l.lookups
  | .field f => f.toList
  | .arith _ l r => l.lookups ++ r.lookups
  | .neg l => l.lookups
  | .func _ items => Node.allLookups items
def Node.allLookups : List Node → List JStr
  | [] => []
  | n :: ns => n.lookups ++ Node.allLookups ns
end

theorem requireField_agree {f : Option JStr} {d d' : Data}
    (h : ∀ g ∈ f.toList, getValueFromMap g d = getValueFromMap g d') : requireField f d = requireField f d' := by
  unfold requireField lookupField
  cases f with
  | none => rfl
  | some g => simp only [h g (by simp)]

theorem lookupField_agree {f : Option JStr} {d d' : Data}
    (h : ∀ g ∈ f.toList, getValueFromMap g d = getValueFromMap g d') : lookupField f d = lookupField f d' := by
  unfold lookupField
  cases f with
  | none => rfl
  | some g => simp only [h g (by simp)]

mutual
theorem evalArith_agree (env : Env) {d d' : Data} : (n : Node) →
    (∀ f ∈ n.lookups, getValueFromMap f d = getValueFromMap f d') → evalArith env d n = evalArith env d' n
  | .cmp _ _ _ _, _ => by simp only [evalArith]
  | .range _ _ _ _ _, _ => by simp only [evalArith]
  | .inn _ _, _ => by simp only [evalArith]
  | .array _ _ _, _ => by simp only [evalArith]
  | .unary _ _, _ => by simp only [evalArith]
  | .and_ _ _, _ => by simp only [evalArith]
  | .or_ _ _, _ => by simp only [evalArith]
  | .not_ _, _ => by simp only [evalArith]
  | .field f, h => by rw [evalArith, evalArith]; exact requireField_agree h
  | .arith _ l r, h => by
    rw [Node.lookups] at h
    rw [evalArith, evalArith, evalArith_agree env l (fun f hf => h f (by simp [hf])),
      evalArith_agree env r (fun f hf => h f (by simp [hf]))]
  | .neg l, h => by rw [evalArith, evalArith, evalArith_agree env l h]
  | .func _ items, h => by rw [evalArith, evalArith, evalArithAll_agree env items h]
theorem evalArithAll_agree (env : Env) {d d' : Data} : (ns : List Node) →
    (∀ f ∈ Node.allLookups ns, getValueFromMap f d = getValueFromMap f d') →
    evalArithAll env d ns = evalArithAll env d' ns
  | [], _ => by rw [evalArithAll, evalArithAll]
  | n :: ns, h => by
    rw [Node.allLookups] at h
    rw [evalArithAll, evalArithAll, evalArith_agree env n (fun f hf => h f (by simp [hf])),
      evalArithAll_agree env ns (fun f hf => h f (by simp [hf]))]
end

theorem operandValue_agree (env : Env) {d d' : Data} (n : Node)
    (h : ∀ f ∈ n.lookups, getValueFromMap f d = getValueFromMap f d') {b b' : Result Bool} (hb : b = b') :
    operandValue env d n b = operandValue env d' n b' := by
  subst hb
  unfold operandValue
  split
  · exact lookupField_agree h
  · rfl
  · rw [evalArith_agree env n h]

theorem itemValue_agree (env : Env) {d d' : Data} (n : Node)
    (h : ∀ f ∈ n.lookups, getValueFromMap f d = getValueFromMap f d') {b b' : Result Bool} (hb : b = b') :
    itemValue env d n b = itemValue env d' n b' := by
  subst hb
  unfold itemValue
  rw [evalArith_agree env n h]

theorem toText_text {v : Value} {s : JStr} (h : toText v = .ok s) : s = v.text := by
  cases v <;> first | (cases h; done) | (injection h with h; exact h.symm)

mutual
theorem evalBool_agree (env : Env) {d d' : Data} : (n : Node) →
    (∀ f ∈ n.lookups, getValueFromMap f d = getValueFromMap f d') → evalBool env d n = evalBool env d' n
  | .cmp l r _ _, h => by
    rw [Node.lookups] at h
    have hl : ∀ f ∈ l.lookups, getValueFromMap f d = getValueFromMap f d' := fun f hf => h f (by simp [hf])
    have hr : ∀ f ∈ r.lookups, getValueFromMap f d = getValueFromMap f d' := fun f hf => h f (by simp [hf])
    rw [evalBool, evalBool, operandValue_agree env l hl (evalBool_agree env l hl),
      operandValue_agree env r hr (evalBool_agree env r hr)]
  | .range f _ _ _ _, h => by
    rw [evalBool, evalBool, evalRange, evalRange, requireField_agree (f := some f) (by simpa [Node.lookups] using h)]
  | .inn f items, h => by
    rw [Node.lookups] at h
    rw [evalBool, evalBool, requireField_agree (f := some f) (fun g hg => h g (by simp at hg; simp [hg])),
      evalItems_agree env items (fun g hg => h g (by simp [hg]))]
  | .array f _ items, h => by
    rw [Node.lookups] at h
    rw [evalBool, evalBool, requireField_agree (f := some f) (fun g hg => h g (by simp at hg; simp [hg])),
      evalItems_agree env items (fun g hg => h g (by simp [hg]))]
  | .unary dt v, h => by
    rw [evalBool, evalBool]
    unfold evalUnary
    split
    · rfl
    · cases ht : toText v with
      | error e => rfl
      | ok s =>
        rw [ok_bind, ok_bind, requireField_agree (f := some s)]
        intro g hg
        apply h
        rw [Node.lookups, ← toText_text ht]
        simpa using hg
  | .and_ l r, h => by
    rw [Node.lookups] at h
    rw [evalBool, evalBool, evalBool_agree env l (fun f hf => h f (by simp [hf])),
      evalBool_agree env r (fun f hf => h f (by simp [hf]))]
  | .or_ l r, h => by
    rw [Node.lookups] at h
    rw [evalBool, evalBool, evalBool_agree env l (fun f hf => h f (by simp [hf])),
      evalBool_agree env r (fun f hf => h f (by simp [hf]))]
  | .not_ l, h => by rw [evalBool, evalBool, evalBool_agree env l h]
  | .field _, _ => by rw [evalBool, evalBool]
  | .arith _ _ _, _ => by rw [evalBool, evalBool]
  | .neg _, _ => by rw [evalBool, evalBool]
  | .func _ _, _ => by rw [evalBool, evalBool]
theorem evalItems_agree (env : Env) {d d' : Data} : (ns : List Node) →
    (∀ f ∈ Node.allLookups ns, getValueFromMap f d = getValueFromMap f d') →
    evalItems env d ns = evalItems env d' ns
  | [], _ => by rw [evalItems, evalItems]
  | n :: ns, h => by
    rw [Node.allLookups] at h
    have hn : ∀ f ∈ n.lookups, getValueFromMap f d = getValueFromMap f d' := fun f hf => h f (by simp [hf])
    rw [evalItems, evalItems, itemValue_agree env n hn (evalBool_agree env n hn),
      evalItems_agree env ns (fun f hf => h f (by simp [hf]))]
end

/-! ### Reordering -/

theorem hasEntry_mem {d : Data} {k : JStr} {v : Value} (h : HasEntry d k v) : (k, v) ∈ d := by
  obtain ⟨pre, post, rfl, _⟩ := h; simp

theorem mem_hasEntry {d : Data} {k : JStr} {v : Value} (hn : (d.map Prod.fst).Nodup) (h : (k, v) ∈ d) :
    HasEntry d k v := by
  obtain ⟨pre, post, rfl⟩ := List.append_of_mem h
  refine ⟨pre, post, rfl, ?_⟩
  intro e he hk
  rw [List.map_append, List.map_cons, List.nodup_append] at hn
  exact hn.2.2 e.1 (List.mem_map_of_mem he) k (by simp) hk

theorem entries_keys {es es' : List (JStr × Value)} (h : ReorderedEntries es es') :
    es.map Prod.fst = es'.map Prod.fst := by
  induction es generalizing es' with
  | nil => cases h; rfl
  | cons e es ih => cases h with
    | cons _ h => simp [ih h]

theorem entries_mem {es es' : List (JStr × Value)} (h : ReorderedEntries es es') {k : JStr} {v : Value}
    (hm : (k, v) ∈ es) : ∃ v', (k, v') ∈ es' ∧ Reordered v v' := by
  induction es generalizing es' with
  | nil => cases hm
  | cons e es ih => cases h with
    | cons h1 h2 =>
      rcases List.mem_cons.mp hm with hm | hm
      · injection hm with e1 e2; subst e1; subst e2
        exact ⟨_, by simp, h1⟩
      · obtain ⟨v', h3, h4⟩ := ih h2 hm
        exact ⟨v', by simp [h3], h4⟩

theorem entries_mem' {es es' : List (JStr × Value)} (h : ReorderedEntries es es') {k : JStr} {v' : Value}
    (hm : (k, v') ∈ es') : ∃ v, (k, v) ∈ es ∧ Reordered v v' := by
  induction es generalizing es' with
  | nil => cases h; cases hm
  | cons e es ih => cases h with
    | cons h1 h2 =>
      rcases List.mem_cons.mp hm with hm | hm
      · injection hm with e1 e2; subst e1; subst e2
        exact ⟨_, by simp, h1⟩
      · obtain ⟨v', h3, h4⟩ := ih h2 hm
        exact ⟨v', by simp [h3], h4⟩

/-- Lookups in reordered maps give reordered values. -/
theorem reordered_entry {es es' : Data} (h : Reordered (.map es) (.map es')) {k : JStr} {v : Value}
    (he : HasEntry es k v) : ∃ v', HasEntry es' k v' ∧ Reordered v v' := by
  cases h with
  | refl => exact ⟨v, he, .refl v⟩
  | map hn h1 h2 =>
    obtain ⟨v', h3, h4⟩ := entries_mem h1 (hasEntry_mem he)
    refine ⟨v', mem_hasEntry ?_ (h2.mem_iff.mp h3), h4⟩
    rw [← (h2.map Prod.fst).nodup_iff, ← entries_keys h1]; exact hn

theorem reordered_entry' {es es' : Data} (h : Reordered (.map es) (.map es')) {k : JStr} {v' : Value}
    (he : HasEntry es' k v') : ∃ v, HasEntry es k v ∧ Reordered v v' := by
  cases h with
  | refl => exact ⟨v', he, .refl v'⟩
  | map hn h1 h2 =>
    obtain ⟨v, h3, h4⟩ := entries_mem' h1 (h2.mem_iff.mpr (hasEntry_mem he))
    exact ⟨v, mem_hasEntry hn h3, h4⟩

theorem reordered_null {v v' : Value} (h : Reordered v v') : v = .null ↔ v' = .null := by
  cases h with
  | refl => rfl
  | map => constructor <;> intro h <;> cases h

theorem reordered_reaches {es es' : Data} (h : Reordered (.map es) (.map es')) {ks : List JStr} {v : Value}
    (hr : Reaches es ks v) : ∃ v', Reaches es' ks v' ∧ Reordered v v' := by
  induction hr generalizing es' with
  | leaf he hv =>
    obtain ⟨v', h1, h2⟩ := reordered_entry h he
    exact ⟨v', .leaf h1 (fun e => hv ((reordered_null h2).mpr e)), h2⟩
  | step he hr ih =>
    obtain ⟨v', h1, h2⟩ := reordered_entry h he
    have : ∃ es'', v' = .map es'' := by cases h2 <;> exact ⟨_, rfl⟩
    obtain ⟨es'', rfl⟩ := this
    obtain ⟨w, h3, h4⟩ := ih h2
    exact ⟨w, .step h1 h3, h4⟩

theorem reordered_reaches' {es es' : Data} (h : Reordered (.map es) (.map es')) {ks : List JStr} {v' : Value}
    (hr : Reaches es' ks v') : ∃ v, Reaches es ks v ∧ Reordered v v' := by
  induction hr generalizing es with
  | leaf he hv =>
    obtain ⟨v, h1, h2⟩ := reordered_entry' h he
    exact ⟨v, .leaf h1 (fun e => hv ((reordered_null h2).mp e)), h2⟩
  | step he hr ih =>
    obtain ⟨v, h1, h2⟩ := reordered_entry' h he
    have : ∃ es'', v = .map es'' := by cases h2 <;> exact ⟨_, rfl⟩
    obtain ⟨es'', rfl⟩ := this
    obtain ⟨w, h3, h4⟩ := ih h2
    exact ⟨w, .step h1 h3, h4⟩

/-- Where no map is found, reordered maps agree. -/
theorem reordered_agree {d d' : Data} (h : Reordered (.map d) (.map d')) {f : JStr}
    (hs : ∀ ks v, Names f ks → Reaches d ks v → NotMap v) : AgreeOn f d d' := by
  intro ks v hn
  constructor
  · intro hr
    obtain ⟨v', h1, h2⟩ := reordered_reaches h hr
    have := hs ks v hn hr
    cases h2 with
    | refl => exact h1
    | map => exact absurd this id
  · intro hr
    obtain ⟨w, h1, h2⟩ := reordered_reaches' h hr
    have := hs ks w hn h1
    cases h2 with
    | refl => exact h1
    | map => exact absurd this id

end BoolParser
