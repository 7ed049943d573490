import Verif.Spec.NumericLogic
import Verif.Props.Conditions
/-!
# Conditions about numbers

C69.
-/

namespace BoolParser
open Spec

/-! ## C69 Conditions about numbers -/

theorem numeric_value {ρ : JStr → ℚ} (env : Env) {d : Data} {e : Arith} (hv : e.Valid) (hn : e.isNumeric = true)
    (hd : HoldsNumbers d e.fields ρ) :
    ∃ v, e.value env d = .ok v ∧ Cond.rightValue env d e = .ok v ∧ Num v (e.rational ρ) := by
  cases e with
  | field f =>
    obtain ⟨ks, v, h1, h2, h3⟩ := hd f (by simp [Arith.fields])
    refine ⟨v, by rw [Arith.value]; exact fieldValue_reaches h1 h2, ?_, h3⟩
    rw [Cond.rightValue, (lookup_some h1 d v).mpr h2]; rfl
  | lit l => exact ⟨l.value, by rw [Arith.value], rfl, numLit hv hn⟩
  | _ => cases hn

theorem numeric_values {ρ : JStr → ℚ} (env : Env) {d : Data} : (es : List Arith) → Arith.AllValid es →
    es.all Arith.isNumeric = true → HoldsNumbers d (Arith.allFields es) ρ →
    ∃ vs, Arith.values env d es = .ok vs ∧ List.Forall₂ Num vs (es.map (Arith.rational ρ))
  | [], _, _, _ => ⟨[], by rw [Arith.values], .nil⟩
  | e :: es, hv, hn, hd => by
    rw [List.all_cons, Bool.and_eq_true] at hn
    obtain ⟨v, h1, _, h2⟩ := numeric_value env hv.1 hn.1 (fun f hf => hd f (by simp [Arith.allFields, hf]))
    obtain ⟨vs, h3, h4⟩ := numeric_values env es hv.2 hn.2 (fun f hf => hd f (by simp [Arith.allFields, hf]))
    exact ⟨v :: vs, by rw [Arith.values, h1, ok_bind, h3]; rfl, .cons h2 h4⟩

theorem numeric_member {v : Value} {x : ℚ} (hv : Num v x) {vs : List Value} {xs : List ℚ} (h : List.Forall₂ Num vs xs)
    (hne : vs ≠ []) : Cond.member v vs = .ok (decide (x ∈ xs)) := by
  have he : ∀ {w : Value} {y : ℚ}, Num w y → elements w = [w] := by intro w y h; cases h <;> rfl
  have hf : vs.flatMap elements = vs := by
    clear hne
    induction h with
    | nil => rfl
    | cons h _ ih => rw [List.flatMap_cons, he h, ih]; rfl
  rw [member_eq (by rw [hf]; exact hne), hf]
  clear hne hf
  induction h with
  | nil => rfl
  | @cons w y _ ys h _ ih =>
    rw [anyM', compare_num .eq hv h, ok_bind, ih]
    by_cases hx : x = y
    · rw [decide_eq_true (show Rel .eq x y from hx), decide_eq_true (show x ∈ y :: ys by simp [hx])]; rfl
    · rw [decide_eq_false (show ¬ Rel .eq x y from hx), decide_eq_decide.mpr (show x ∈ y :: ys ↔ x ∈ ys by simp [hx])]
      rfl

theorem numeric_meaning {ρ : JStr → ℚ} (env : Env) {d : Data} (df : Option JStr) : (c : Cond) → c.Valid →
    c.isNumeric = true → HoldsNumbers d (c.fields df) ρ →
    ∃ b, c.meaning env d df = .ok b ∧ (b = true ↔ c.Says ρ)
  | .cmp o l r, hv, hn, hd => by
    rw [Cond.isNumeric, Bool.and_eq_true] at hn
    obtain ⟨a, h1, _, h2⟩ := numeric_value env hv.1 hn.1 (fun f hf => hd f (by simp [Cond.fields, hf]))
    obtain ⟨b, _, h3, h4⟩ := numeric_value env hv.2.1 hn.2 (fun f hf => hd f (by simp [Cond.fields, hf]))
    refine ⟨_, by rw [Cond.meaning, h1, ok_bind, h3, ok_bind, compare_num o h2 h4], ?_⟩
    rw [decide_eq_true_eq, Cond.Says]
  | .range f lo hi, hv, _, hd => by
    obtain ⟨ks, v, h1, h2, h3⟩ := hd f (by simp [Cond.fields])
    obtain ⟨_, v1, v2, n1, n2⟩ := hv
    refine ⟨_, by rw [Cond.meaning, fieldValue_reaches h1 h2, ok_bind, compare_num .ge h3 (numLit v1 n1), ok_bind,
      compare_num .le h3 (numLit v2 n2), ok_bind]; rfl, ?_⟩
    rw [Bool.and_eq_true, decide_eq_true_iff, decide_eq_true_iff, Cond.Says]
    exact Iff.rfl
  | .isIn f ng items, hv, hn, hd => by
    obtain ⟨ks, v, h1, h2, h3⟩ := hd f (by simp [Cond.fields])
    obtain ⟨vs, h4, h5⟩ := numeric_values env items hv.2.2 hn (fun f hf => hd f (by simp [Cond.fields, hf]))
    have hne : vs ≠ [] := by
      rintro rfl
      have := h5.length_eq
      simp only [List.length_nil, List.length_map] at this
      exact hv.2.1 (List.eq_nil_of_length_eq_zero this.symm)
    refine ⟨_, by rw [Cond.meaning, fieldValue_reaches h1 h2, ok_bind, h4, ok_bind, numeric_member h3 h5 hne, ok_bind]; rfl, ?_⟩
    cases ng with
    | false =>
      rw [if_neg (by decide), decide_eq_true_iff, Cond.Says, if_neg (by decide), List.mem_map]
      exact ⟨fun ⟨i, hi, e⟩ => ⟨i, hi, e.symm⟩, fun ⟨i, hi, e⟩ => ⟨i, hi, e.symm⟩⟩
    | true =>
      rw [if_pos rfl, Bool.not_eq_true', decide_eq_false_iff_not, Cond.Says, if_pos rfl, List.mem_map]
      exact ⟨fun h i hi e => h ⟨i, hi, e.symm⟩, fun h ⟨i, hi, e⟩ => h i hi e.symm⟩
  | .not c, hv, hn, hd => by
    obtain ⟨b, h1, h2⟩ := numeric_meaning env df c hv hn hd
    refine ⟨!b, by rw [Cond.meaning, h1]; rfl, ?_⟩
    rw [Cond.Says, ← h2]; cases b <;> simp
  | .group c, hv, hn, hd => by
    obtain ⟨b, h1, h2⟩ := numeric_meaning env df c hv hn hd
    exact ⟨b, by rw [Cond.meaning, h1], h2⟩
  | .conn conj l r, hv, hn, hd => by
    rw [Cond.isNumeric, Bool.and_eq_true] at hn
    obtain ⟨a, h1, h2⟩ := numeric_meaning env df l hv.1 hn.1 (fun f hf => hd f (by simp [Cond.fields, hf]))
    obtain ⟨b, h3, h4⟩ := numeric_meaning env df r hv.2 hn.2 (fun f hf => hd f (by simp [Cond.fields, hf]))
    cases conj with
    | true =>
      refine ⟨a && b, by rw [Cond.meaning, h1, ok_bind, h3]; cases a <;> rfl, ?_⟩
      rw [Cond.Says, if_pos rfl, ← h2, ← h4, Bool.and_eq_true]
    | false =>
      refine ⟨a || b, by rw [Cond.meaning, h1, ok_bind, h3]; cases a <;> rfl, ?_⟩
      rw [Cond.Says, if_neg (by decide), ← h2, ← h4, Bool.or_eq_true]
  | .cmpD _ _, _, hn, _ => by cases hn
  | .isNull _ _, _, hn, _ => by cases hn
  | .contains _ _ _, _, hn, _ => by cases hn
  | .notField _, _, hn, _ => by cases hn

/-- **C69.** A condition made of comparisons, ranges and IN tests about numbers is true iff what it says holds of the
mathematical numbers in the data. It does not fail. -/
theorem C69_numeric {s : JStr} {c : Cond} (h : Writes s c) (hn : c.isNumeric = true) {d : Data} {ρ : JStr → ℚ}
    {df : Option JStr} (hdf : DefaultOk df) (hd : HoldsNumbers d (c.fields df) ρ) (env : Env) :
    ∃ b, evaluate env s d df = .success b ∧ (b = true ↔ c.Says ρ) := by
  obtain ⟨b, h1, h2⟩ := numeric_meaning env df c h.valid hn hd
  exact ⟨b, by rw [h.eval env d hdf, h1]; rfl, h2⟩

/-- **C69**: whether a number is held as `Integer`, `Long`, `BigDecimal` of any scale, `Double` or `Float` makes no
difference. -/
theorem C69_representation {s : JStr} {c : Cond} (h : Writes s c) (hn : c.isNumeric = true) {d d' : Data}
    {ρ : JStr → ℚ} {df : Option JStr} (hdf : DefaultOk df) (hd : HoldsNumbers d (c.fields df) ρ)
    (hd' : HoldsNumbers d' (c.fields df) ρ) (env : Env) : evaluate env s d df = evaluate env s d' df := by
  obtain ⟨b, h1, h2⟩ := C69_numeric h hn hdf hd env
  obtain ⟨b', h1', h2'⟩ := C69_numeric h hn hdf hd' env
  rw [h1, h1', Bool.eq_iff_iff.mpr (h2.trans h2'.symm)]

/-- **C69**: conditions that say the same about numbers give the same answers. -/
theorem C69_equivalent {s s' : JStr} {c c' : Cond} (h : Writes s c) (h' : Writes s' c') (hn : c.isNumeric = true)
    (hn' : c'.isNumeric = true) {d : Data} {ρ : JStr → ℚ} {df : Option JStr} (hdf : DefaultOk df)
    (hd : HoldsNumbers d (c.fields df) ρ) (hd' : HoldsNumbers d (c'.fields df) ρ) (heq : c.Says ρ ↔ c'.Says ρ)
    (env : Env) : evaluate env s d df = evaluate env s' d df := by
  obtain ⟨b, h1, h2⟩ := C69_numeric h hn hdf hd env
  obtain ⟨b', h1', h2'⟩ := C69_numeric h' hn' hdf hd' env
  rw [h1, h1', Bool.eq_iff_iff.mpr (h2.trans (heq.trans h2'.symm))]

/-- A range split in two, and an IN test written with `=`, for every number in every representation. -/
example (env : Env) {a : Value} {x : ℚ} (ha : Num a x) :
    evaluate env j!"a 1 TO 9 OR a IN (12, 15)" [(['a'], a)] none
      = evaluate env j!"a = 15 OR a = 12 OR (a >= 1 AND a <= 9)" [(['a'], a)] none := by
  have hd : ∀ fs, (∀ f ∈ fs, f = ['a']) → HoldsNumbers [(['a'], a)] fs (fun _ => x) := by
    intro fs hfs f hf
    rw [hfs f hf]
    exact ⟨[['a']], a, ⟨⟨by simp, by decide, by simp⟩, 0, rfl⟩, .leaf ⟨[], [], rfl, by simp⟩ (by rintro rfl; cases ha), ha⟩
  refine C69_equivalent
    (c := .conn false (.range ['a'] (.int ['1']) (.int ['9'])) (.isIn ['a'] false [.lit (.int j!"12"), .lit (.int j!"15")]))
    (c' := .conn false (.conn false (.cmp .eq (.field ['a']) (.lit (.int j!"15"))) (.cmp .eq (.field ['a']) (.lit (.int j!"12"))))
      (.group (.conn true (.cmp .ge (.field ['a']) (.lit (.int ['1']))) (.cmp .le (.field ['a']) (.lit (.int ['9']))))))
    (writes_of (by krfl)) (writes_of (by krfl)) rfl rfl noDefault (hd _ (by simp [Cond.fields, Arith.fields, Arith.allFields]))
    (hd _ (by simp [Cond.fields, Arith.fields])) ?_ env
  simp [Cond.Says, Arith.rational, Rel]
  tauto

end BoolParser
