import Verif.Lemmas.Families
import Verif.Props.State
/-!
# Programs with data types of their own
-/

namespace BoolParser
open Spec

/-! ### The registries of a program with its own types -/

theorem reg_own (P : Request → Result Node) {es : List Event} (he : HasEvaluator es) {s : Slot}
    (hs : ∀ t id, Event.register t id ∈ es → s ≠ .dataType t) : (World.after P es).reg s = some .builtin := by
  induction es using List.reverseRecOn with
  | nil => rcases he with h | h <;> cases h
  | append_singleton es e ih =>
    have hn : ∀ t id, Event.register t id ∈ es → s ≠ .dataType t := fun t id hm => hs t id (by simp [hm])
    rw [after_append]
    by_cases hin : HasEvaluator es
    · have ih := ih hin hn
      cases e with
      | construct c =>
        rcases run_last (World.after P es).reg c.puts s with e | ⟨i, hi, e⟩
        · simp only [World.step]; rw [e]; exact ih
        · simp only [World.step]; rw [e, show i = .builtin from ctor_builtin c _ hi]
      | register t id =>
        simp only [World.step, BoolParser.register, Registry.run, List.foldl_cons, List.foldl_nil, Registry.put]
        rw [if_neg (hs t id (by simp))]; exact ih
      | _ => exact ih
    · have hc : ∃ c, e = .construct c ∧ (c = .arithEvaluator ∨ c = .boolEvaluator) := by
        rcases he with he | he <;> rcases List.mem_append.mp he with hm | hm
        · exact absurd (.inl hm) hin
        · exact ⟨_, (List.mem_singleton.mp hm).symm, .inl rfl⟩
        · exact absurd (.inr hm) hin
        · exact ⟨_, (List.mem_singleton.mp hm).symm, .inr rfl⟩
      obtain ⟨c, rfl, hce⟩ := hc
      obtain ⟨i, hi, e⟩ := run_hit (World.after P es).reg ⟨_, evaluator_covers hce s⟩
      simp only [World.step]
      rw [e, show i = .builtin from ctor_builtin c _ hi]

theorem own_on (P : Request → Result Node) {es : List Event} (he : HasEvaluator es) {A : DataType → Prop}
    (hs : ∀ t id, Event.register t id ∈ es → ¬ A t) (U : Users) : ((World.after P es).live U).On A where
  operator := fun _ o => reg_own P he fun t id _ h => by cases h
  function := fun _ f => reg_own P he fun t id _ h => by cases h
  type := fun _ t ht => reg_own P he fun t' id hm h => by cases h; exact hs t id hm ht

theorem node_parsed {P : Request → Result Node} (hP : IsBoolParser P) {s : JStr} {df : Option JStr} {n : Node}
    (h : parseExpression s df = .success n) : P ⟨s, df⟩ = .ok n := by
  have := hP ⟨s, df⟩
  simp only [h] at this
  exact this

theorem among_lookup {F : Family → Prop} {f : JStr} {ks : List JStr} (hn : Names f ks) {d : Data}
    (h : ∀ ks v, Names f ks → Reaches d ks v → AmongFamilies F v) (v : Value) (hv : getValueFromMap f d = .ok (some v)) :
    AmongFamilies F v := h ks v hn ((lookup_some hn d v).mp hv)

/-- The program constructed an evaluator, replaced the type `t` by its object `id`, and did anything else but construct
evaluators or register types. -/
def Replaced (P : Request → Result Node) (t : DataType) (id : Nat) (w : World) : Prop :=
  ∃ es es', NoCustom es ∧ HasEvaluator es ∧
    (∀ e ∈ es', (∀ c, e = .construct c → c = .boolParser ∨ c = .cachedParser) ∧ ∀ t' i, e ≠ .register t' i) ∧
    w = World.after P (es ++ [.register t id] ++ es')

theorem replaced_type {P : Request → Result Node} {t : DataType} {id : Nat} {w : World} (h : Replaced P t id w) :
    w.reg (.dataType t) = some (.custom id) := by
  obtain ⟨es, es', hn, he, hes', rfl⟩ := h
  induction es' using List.reverseRecOn with
  | nil => rw [List.append_nil, after_append]; simp [World.step, BoolParser.register, Registry.run, Registry.put]
  | append_singleton es' e ih =>
    have ih := ih (fun e he => hes' e (by simp [he]))
    obtain ⟨h1, h2⟩ := hes' e (by simp)
    rw [← List.append_assoc, after_append]
    cases e with
    | construct c =>
      rcases run_last (World.after P (es ++ [.register t id] ++ es')).reg c.puts (.dataType t) with e | ⟨i, hi, _⟩
      · simp only [World.step]; rw [e]; exact ih
      · exfalso
        have : ∀ i, (Slot.dataType t, i) ∉ c.puts := by
          intro i
          rcases h1 c rfl with rfl | rfl <;> cases i <;> simp [Ctor.puts, newBoolParser, operatorInit]
        exact this i hi
    | register t' i => exact absurd rfl (h2 t' i)
    | _ => exact ih

theorem replaced_on {P : Request → Result Node} {t : DataType} {id : Nat} {w : World} (h : Replaced P t id w)
    (U : Users) : (w.live U).On (fun t' => t' ≠ t) := by
  obtain ⟨es, es', hn, he, hes', rfl⟩ := h
  refine own_on P he.append.append (fun t' i hm => ?_) U
  simp only [List.mem_append, List.mem_singleton] at hm
  rcases hm with (hm | hm) | hm
  · exact absurd hm (hn t' i)
  · cases hm; simp
  · exact absurd rfl ((hes' _ hm).2 t' i)

theorem numberType_type {v : Value} {t : DataType} (h : numberType v = some t) :
    getDataType v = t ∧ isValid t v = .ok true ∧ (t = .integer ∨ t = .long ∨ t = .decimal) := by
  cases v <;> simp only [numberType] at h <;> cases h <;> exact ⟨rfl, rfl, by simp⟩

theorem fetches_worksIn {o : ArithOp} {s t : DataType} (hs : s = .integer ∨ s = .long ∨ s = .decimal)
    (ht : t = .integer ∨ t = .long ∨ t = .decimal) : o.fetches s t = some (worksIn o s t) := by
  rcases hs with rfl | rfl | rfl <;> rcases ht with rfl | rfl | rfl <;> cases o <;> rfl

theorem functionWorksIn_fetches {f : FuncType} {items : List Typed} :
    f.fetches items = functionWorksIn f (items.map Prod.snd) := by
  have h : ∀ t, anyType t items = true ↔ t ∈ items.map Prod.snd := by
    intro t
    simp only [anyType, List.any_eq_true, beq_iff_eq, List.mem_map]
  cases f <;> simp only [FuncType.fetches, functionWorksIn, h] <;> (repeat' split) <;> rfl

theorem fields_values {d : Data} {xs : List JStr} {vs : List Value}
    (h : List.Forall₂ (fun x v => ∃ ks, Names x ks ∧ Reaches d ks v) xs vs) (L : Live) (env : Env) :
    Refines (evalArithAllL L env d (Arith.nodes (xs.map .field))) (.ok vs) ∧
      evalArithAll env d (Arith.nodes (xs.map .field)) = .ok vs := by
  induction h with
  | nil => simp only [List.map_nil, Arith.nodes, evalArithAllL, evalArithAll]; exact ⟨refines_pure _, trivial⟩
  | @cons x v xs vs hx _ ih =>
    obtain ⟨ks, hn, hr⟩ := hx
    have rv : requireField (some x) d = .ok v := by
      unfold requireField; rw [show lookupField (some x) d = .ok (some v) from (lookup_some hn d v).mpr hr]; rfl
    simp only [List.map_cons, Arith.nodes, Arith.node, evalArithAllL, evalArithAll, evalArithL, evalArith, rv, ih.2, ok_bind]
    exact ⟨refines_bind_ok (refines_lift _) (refines_bind_ok ih.1 (refines_pure _)), rfl⟩

theorem numbers_flat {vs : List Value} {ts : List DataType} (h : List.Forall₂ (fun v t => numberType v = some t) vs ts) :
    (flattenItems vs).map Prod.snd = ts ∧ (flattenItems vs).length = vs.length ∧ validateItems (flattenItems vs) = .ok () := by
  induction h with
  | nil => exact ⟨rfl, rfl, rfl⟩
  | @cons v t vs ts hv _ ih =>
    obtain ⟨e, i, _⟩ := numberType_type hv
    have hf : flattenItems (v :: vs) = (v, t) :: flattenItems vs := by
      rw [flattenItems_cons]
      cases v <;> simp only [numberType] at hv <;> cases hv <;> rfl
    rw [hf]
    refine ⟨by simp [ih.1], by simp [ih.2.1], ?_⟩
    rw [validateItems]
    simp only [i, ok_bind, ih.2.2]
    rfl

theorem numbers_types {vs : List Value} {ts : List DataType} (h : List.Forall₂ (fun v t => numberType v = some t) vs ts)
    {t : DataType} (hm : t ∈ ts) : t = .integer ∨ t = .long ∨ t = .decimal := by
  induction h with
  | nil => cases hm
  | cons hv _ ih =>
    rcases List.mem_cons.1 hm with e | hm
    · rw [e]; exact (numberType_type hv).2.2
    · exact ih hm

end BoolParser
