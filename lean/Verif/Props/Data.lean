import Verif.Lemmas.Agree
import Verif.Lemmas.Compare
import Verif.Lemmas.Checker
/-!
# Data maps

C16, C17, C54.
-/

namespace BoolParser
open Spec

/-! ## C16 Dotted names walk nested maps -/

/-- **C16**, found: a field operand has the value that following its keys leads to. -/
theorem C16_found {f : JStr} {ks : List JStr} (hn : Names f ks) {env : Env} {d : Data} {v : Value}
    (hr : Reaches d ks v) : (Arith.field f).value env d = .ok v := by
  rw [Arith.value]; exact fieldValue_reaches hn hr

/-- **C16**, found, seen through the API: comparing the field is comparing that value. -/
theorem C16_compare {f : JStr} {ks : List JStr} (hn : Names f ks) {o : CmpOp} {r : Arith} {s : JStr}
    (h : Writes s (.cmp o (.field f) r)) {env : Env} {d : Data} {df : Option JStr} (hdf : DefaultOk df) {v b : Value}
    (hr : Reaches d ks v) (hb : r.value env d = .ok b) :
    evaluate env s d df = .ofResult (Cond.compare o v b) :=
  cmp_text h hdf (C16_found hn hr) hb

/-- **C16**, missing: if no value is found (a key is absent, or has null, or something that is not a map where
the path goes on), every comparison with the field on the left fails with `DataNotFoundException`. -/
theorem C16_missing {f : JStr} {ks : List JStr} (hn : Names f ks) {o : CmpOp} {r : Arith} {s : JStr}
    (h : Writes s (.cmp o (.field f) r)) (env : Env) {d : Data} {df : Option JStr} (hdf : DefaultOk df)
    (hm : Missing d ks) : evaluate env s d df = .failure .dataNotFound := by
  rw [h.eval env d hdf, Cond.meaning, Arith.value, fieldValue_missing hn hm]; rfl

/-- Every field name is such a path, and only one. -/
theorem C16_every_name {f : JStr} (h : IsName f) : ∃! ks, Names f ks := by
  obtain ⟨ks, hk⟩ := isName_names h
  exact ⟨ks, hk, fun ks' h' => names_unique h' hk⟩

/-- The value at the end of a path is unique. -/
theorem C16_unique {d : Data} {ks : List JStr} {v w : Value} (h : Reaches d ks v) (h' : Reaches d ks w) : v = w := by
  have h1 := (walkKeys_some ks d v).mpr h
  rw [(walkKeys_some ks d w).mpr h'] at h1
  injection h1 with h1; injection h1 with h1; exact h1.symm

/-- What `Missing` amounts to: the first key is absent; or null at the end of the path; or not a map before the
end; or the rest of the path is missing in the nested map. -/
theorem C16_missing_iff (d : Data) (k : JStr) (ks : List JStr) :
    Missing d (k :: ks) ↔ (∀ v, ¬ HasEntry d k v) ∨ (ks = [] ∧ HasEntry d k .null) ∨
      (ks ≠ [] ∧ ∃ v, HasEntry d k v ∧ ∀ es, v = .map es → Missing es ks) := by
  constructor
  · intro h
    cases hg : mapGet d k with
    | none =>
      left; intro v hv; rw [(mapGet_iff d k v).mpr hv] at hg; cases hg
    | some v =>
      have he := (mapGet_iff d k v).mp hg
      right
      cases ks with
      | nil =>
        left
        by_cases hv : v = .null
        · exact ⟨rfl, hv ▸ he⟩
        · exact absurd (.leaf he hv) (h v)
      | cons k2 ks =>
        right
        refine ⟨by simp, v, he, ?_⟩
        rintro es rfl w hw
        exact h w (.step he hw)
  · rintro (h | ⟨rfl, h⟩ | ⟨hne, v, h, hm⟩) w hw
    · cases hw with
      | leaf he _ => exact h _ he
      | step he _ => exact h _ he
    · cases hw with
      | leaf he hv =>
        have h1 := (mapGet_iff d k _).mpr h
        rw [(mapGet_iff d k _).mpr he] at h1
        injection h1 with h1; exact hv h1
    · cases hw with
      | leaf => exact hne rfl
      | step he hr =>
        have h1 := (mapGet_iff d k _).mpr h
        rw [(mapGet_iff d k _).mpr he] at h1
        injection h1 with h1
        exact hm _ h1.symm _ hr

/-- `person.address.zip` through two nested maps. -/
def nested : Data := [(j!"x", .int 1), (j!"person", .map [(j!"address", .map [(j!"zip", .str j!"12345")]), (j!"age", .int 7)])]

theorem nested_zip : Reaches nested [j!"person", j!"address", j!"zip"] (.str j!"12345") :=
  .step ⟨[(j!"x", .int 1)], [], rfl, by decide⟩ (.step ⟨[], [(j!"age", .int 7)], rfl, by simp⟩
    (.leaf ⟨[], [], rfl, by simp⟩ (by simp)))

theorem zip_name : Names j!"person.address.zip" [j!"person", j!"address", j!"zip"] :=
  ⟨⟨by simp, by decide, by decide⟩, 0, by rfl⟩

example (env : Env) : evaluate env j!"person.address.zip = '12345'" nested none = .success true := by
  rw [C16_compare zip_name (o := .eq) (r := .lit (.str '\'' j!"12345")) (writes_of (by krfl))
    (by intro f h; cases h) nested_zip (b := .str j!"12345") (by rfl)]
  krfl

example (env : Env) : evaluate env j!"person.age.years > 3" nested none = .failure .dataNotFound := by
  refine C16_missing (ks := [j!"person", j!"age", j!"years"]) ⟨⟨by simp, by decide, by decide⟩, 0, by rfl⟩
    (o := .gt) (r := .lit (.int ['3'])) (writes_of (by krfl)) env (by intro f h; cases h) ?_
  exact (walkKeys_none (by simp) nested).mp (by krfl)

/-! ## C17 Only referenced fields matter -/

/-- **C17.** Two data maps that agree on the fields a condition mentions give the same outcome. -/
theorem C17_referenced {c : Cond} {s : JStr} (h : Writes s c) (env : Env) {d d' : Data} {df : Option JStr}
    (hdf : DefaultOk df) (hdn : ∀ f, df = some f → IsName f) (ha : ∀ f ∈ c.fields df, AgreeOn f d d') :
    evaluate env s d df = evaluate env s d' df := by
  rw [h.eval env d hdf, h.eval env d' hdf, meaning_agree env df c]
  intro f hf
  have hn : IsName f := by
    rcases cond_names c h.valid f hf with h | h
    · exact h
    · exact hdn f h
  obtain ⟨ks, hk⟩ := isName_names hn
  exact lookup_agree hk (ha f hf)

/-- **C17**, arithmetic. -/
theorem C17_referenced_arith {e : Arith} {s : JStr} (h : WritesArith s e) (env : Env) {d d' : Data}
    (ha : ∀ f ∈ e.fields, AgreeOn f d d') : evaluateArith env s d = evaluateArith env s d' := by
  rw [h.eval env d, h.eval env d', value_agree env e]
  intro f hf
  obtain ⟨ks, hk⟩ := isName_names (names_of_valid e h.valid f hf)
  exact lookup_agree hk (ha f hf)

/-- **C17**, for every text whatsoever: what matters is what the names in the parsed node look up. -/
theorem C17_any_text (env : Env) (s : JStr) (df : Option JStr) {d d' : Data}
    (ha : ∀ n, parseExpression s df = .success n → ∀ f ∈ n.lookups, getValueFromMap f d = getValueFromMap f d') :
    evaluate env s d df = evaluate env s d' df := by
  unfold evaluate
  cases hp : parseExpression s df with
  | success n => simp only [Outcome.andThen]; rw [evalBool_agree env n (ha n hp)]
  | failure e => rfl
  | syntaxError => rfl

/-- Adding an unrelated field does not change the outcome. -/
example (env : Env) (d : Data) (v : Value) :
    evaluate env j!"a > 5 AND b.c = 'x'" ((j!"zzz", v) :: d) none = evaluate env j!"a > 5 AND b.c = 'x'" d none := by
  refine C17_referenced (c := .conn true (.cmp .gt (.field ['a']) (.lit (.int ['5'])))
    (.cmp .eq (.field j!"b.c") (.lit (.str '\'' ['x'])))) (writes_of (by krfl)) env (by intro f h; cases h)
    (by intro f h; cases h) ?_
  intro f hf ks w hn
  have hs := splitKey_names hn
  rw [← walkKeys_some, ← walkKeys_some]
  have hf' : f = ['a'] ∨ f = j!"b.c" := by simpa [Cond.fields, Arith.fields] using hf
  rcases hf' with rfl | rfl
  · have : ks = [['a']] := by rw [← hs]; rfl
    subst this; rfl
  · have : ks = [['b'], ['c']] := by rw [← hs]; rfl
    subst this; rfl

/-! ## C54 The order of entries does not matter -/

/-- **C54.** Reordering the entries of the data map and of the maps nested in it does not change the outcome,
as long as the mentioned fields are not themselves maps. -/
theorem C54_order {c : Cond} {s : JStr} (h : Writes s c) (env : Env) {d d' : Data} {df : Option JStr}
    (hdf : DefaultOk df) (hdn : ∀ f, df = some f → IsName f) (hr : Reordered (.map d) (.map d'))
    (hs : ∀ f ∈ c.fields df, ∀ ks v, Names f ks → Reaches d ks v → NotMap v) :
    evaluate env s d df = evaluate env s d' df :=
  C17_referenced h env hdf hdn (fun f hf => reordered_agree hr (hs f hf))

/-- **C54**, arithmetic. -/
theorem C54_order_arith {e : Arith} {s : JStr} (h : WritesArith s e) (env : Env) {d d' : Data}
    (hr : Reordered (.map d) (.map d'))
    (hs : ∀ f ∈ e.fields, ∀ ks v, Names f ks → Reaches d ks v → NotMap v) :
    evaluateArith env s d = evaluateArith env s d' :=
  C17_referenced_arith h env (fun f hf => reordered_agree hr (hs f hf))

/-- The exception is real: the text of a map field depends on the order. -/
theorem C54_map_text_differs (env : Env) :
    evaluate env j!"m = '{a=1, b=2}'" [(['m'], .map [(['a'], .int 1), (['b'], .int 2)])] none = .success true ∧
    evaluate env j!"m = '{a=1, b=2}'" [(['m'], .map [(['b'], .int 2), (['a'], .int 1)])] none = .success false :=
  ⟨by krfl, by krfl⟩

/-- Two orders of the same nested data. -/
example : Reordered (.map [(['a'], .int 1), (['m'], .map [(['x'], .int 2), (['y'], .int 3)])])
    (.map [(['m'], .map [(['y'], .int 3), (['x'], .int 2)]), (['a'], .int 1)]) :=
  .map (by decide) (.cons (.refl _) (.cons (.map (by decide) (.cons (.refl _) (.cons (.refl _) .nil))
    (List.Perm.swap _ _ _)) .nil)) (List.Perm.swap _ _ _)

end BoolParser
