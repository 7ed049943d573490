import Verif.Spec.Lists
import Verif.Lemmas.Kinds
/-!
# IN and CONTAINS
-/

namespace BoolParser
open Spec

theorem flattenItems_elements (vs : List Value) :
    flattenItems vs = (vs.flatMap elements).map (fun w => (w, getDataType w)) := by
  induction vs with
  | nil => rfl
  | cons v vs ih =>
    rw [flattenItems_cons, ih, List.flatMap_cons, List.map_append]
    congr 1
    cases v <;> rfl

theorem anyM'_map {α β : Type} (f : β → Result Bool) (g : α → β) (xs : List α) :
    anyM' f (xs.map g) = anyM' (fun x => f (g x)) xs := by
  induction xs with
  | nil => rfl
  | cons x xs ih => simp only [List.map_cons, anyM', ih]

theorem anyM'_congr {α : Type} {f g : α → Result Bool} {xs : List α} (h : ∀ x ∈ xs, f x = g x) :
    anyM' f xs = anyM' g xs := by
  induction xs with
  | nil => rfl
  | cons x xs ih =>
    simp only [anyM', h x (by simp)]
    rw [ih (fun y hy => h y (by simp [hy]))]

theorem allM'_map {α β : Type} (f : β → Result Bool) (g : α → β) (xs : List α) :
    allM' f (xs.map g) = allM' (fun x => f (g x)) xs := by
  induction xs with
  | nil => rfl
  | cons x xs ih => simp only [List.map_cons, allM', ih]

/-- `anyM'` when no test fails. -/
theorem anyM'_ok {α : Type} {f : α → Result Bool} {p : α → Prop} [DecidablePred p] {xs : List α}
    (h : ∀ x ∈ xs, f x = .ok (decide (p x))) : anyM' f xs = .ok (decide (∃ x ∈ xs, p x)) := by
  induction xs with
  | nil => simp [anyM']
  | cons x xs ih =>
    rw [anyM', h x (by simp), ok_bind, ih (fun y hy => h y (by simp [hy]))]
    by_cases hp : p x
    · simp [hp]; rfl
    · simp [hp]

theorem allM'_ok {α : Type} {f : α → Result Bool} {p : α → Prop} [DecidablePred p] {xs : List α}
    (h : ∀ x ∈ xs, f x = .ok (decide (p x))) : allM' f xs = .ok (decide (∀ x ∈ xs, p x)) := by
  induction xs with
  | nil => simp [allM']
  | cons x xs ih =>
    rw [allM', h x (by simp), ok_bind, ih (fun y hy => h y (by simp [hy]))]
    by_cases hp : p x
    · simp [hp]
    · simp [hp]; rfl

/-! ### IN -/

theorem member_eq {v : Value} {vs : List Value} (hne : vs.flatMap elements ≠ []) :
    Cond.member v vs = anyM' (fun w => Cond.compare .eq v w) (vs.flatMap elements) := by
  unfold Cond.member
  rw [logicalIn_eq, flattenItems_elements]
  unfold evalIn
  rw [anyM'_map]
  have hc : ∀ w, Cond.compare .eq v w = (isValid (getDataType v) v >>= fun b =>
      if !b then .error .invalidDataType else evalEq .eq v (getDataType v) w (getDataType w)) := by
    intro w
    rw [compare_eqop (.inl rfl)]
    congr 1
  cases hv : isValid (getDataType v) v with
  | error e =>
    cases hx : vs.flatMap elements with
    | nil => exact absurd hx hne
    | cons x xs =>
      have h1 : anyM' (fun w => Cond.compare .eq v w) (x :: xs) = .error e := by rw [anyM', hc, hv]; rfl
      rw [h1]; rfl
  | ok b =>
    cases b with
    | false =>
      cases hx : vs.flatMap elements with
      | nil => exact absurd hx hne
      | cons x xs =>
        have h1 : anyM' (fun w => Cond.compare .eq v w) (x :: xs) = .error .invalidDataType := by
          rw [anyM', hc, hv]; rfl
        rw [h1]; rfl
    | true =>
      rw [ok_bind]
      simp only [Bool.not_true, Bool.false_eq_true, if_false]
      apply anyM'_congr
      intro x _
      rw [hc, hv]; rfl

theorem values_forall (env : Env) (d : Data) (es : List Arith) (vs : List Value) :
    Arith.values env d es = .ok vs ↔ List.Forall₂ (fun e v => e.value env d = .ok v) es vs := by
  induction es generalizing vs with
  | nil =>
    rw [Arith.values]
    constructor
    · intro h; injection h with h; subst h; exact .nil
    · intro h; cases h; rfl
  | cons e es ih =>
    rw [Arith.values]
    constructor
    · intro h
      cases hv : e.value env d with
      | error x => rw [hv] at h; cases h
      | ok v =>
        rw [hv, ok_bind] at h
        cases hvs : Arith.values env d es with
        | error x => rw [hvs] at h; cases h
        | ok ws =>
          rw [hvs] at h
          injection h with h; subst h
          exact .cons hv ((ih ws).mp hvs)
    · intro h
      cases h with
      | cons h1 h2 => rw [h1, ok_bind, (ih _).mpr h2]; rfl

theorem forall₂_mem_left {α β : Type} {R : α → β → Prop} {xs : List α} {ys : List β} (h : List.Forall₂ R xs ys)
    {x : α} (hx : x ∈ xs) : ∃ y ∈ ys, R x y := by
  induction h with
  | nil => cases hx
  | cons h _ ih =>
    rcases List.mem_cons.mp hx with rfl | hx
    · exact ⟨_, by simp, h⟩
    · obtain ⟨y, h1, h2⟩ := ih hx; exact ⟨y, by simp [h1], h2⟩

theorem forall₂_mem_right {α β : Type} {R : α → β → Prop} {xs : List α} {ys : List β} (h : List.Forall₂ R xs ys)
    {y : β} (hy : y ∈ ys) : ∃ x ∈ xs, R x y := by
  induction h with
  | nil => cases hy
  | cons h _ ih =>
    rcases List.mem_cons.mp hy with rfl | hy
    · exact ⟨_, by simp, h⟩
    · obtain ⟨y, h1, h2⟩ := ih hy; exact ⟨y, by simp [h1], h2⟩

theorem values_exists (env : Env) (d : Data) {es : List Arith} (h : ∀ e ∈ es, ∃ v, e.value env d = .ok v) :
    ∃ vs, Arith.values env d es = .ok vs := by
  induction es with
  | nil => exact ⟨[], by rw [Arith.values]⟩
  | cons e es ih =>
    obtain ⟨v, hv⟩ := h e (by simp)
    obtain ⟨vs, hvs⟩ := ih (fun x hx => h x (by simp [hx]))
    exact ⟨v :: vs, by rw [Arith.values, hv, ok_bind, hvs]; rfl⟩

/-- A value is in the flattened values iff it is an element of some item. -/
theorem mem_flat (env : Env) (d : Data) {es : List Arith} {vs : List Value} (h : Arith.values env d es = .ok vs)
    (w : Value) : w ∈ vs.flatMap elements ↔ ∃ e ∈ es, ∃ v, e.value env d = .ok v ∧ w ∈ elements v := by
  have hf := (values_forall env d es vs).mp h
  rw [List.mem_flatMap]
  constructor
  · rintro ⟨v, hv, hw⟩
    obtain ⟨e, he, h1⟩ := forall₂_mem_right hf hv
    exact ⟨e, he, v, h1, hw⟩
  · rintro ⟨e, he, v, hv, hw⟩
    obtain ⟨v', h1, h2⟩ := forall₂_mem_left hf he
    rw [hv] at h2; injection h2 with h2; subst h2
    exact ⟨v, h1, hw⟩

/-! ### CONTAINS -/

theorem text_comparable (t : DataType) : comparableType t .string = .string := by cases t <;> rfl

theorem evalEq_text {w x : Value} (hw : w ≠ .null) (hx : x ≠ .null) (t : DataType) :
    evalEq .eq w t x .string = .ok (decide (x.text = w.text)) := by
  unfold evalEq
  rw [text_comparable]
  have h1 : asString w = .ok (some w.text) := by cases w <;> first | (exact absurd rfl hw) | rfl
  have h2 : asString x = .ok (some x.text) := by cases x <;> first | (exact absurd rfl hx) | rfl
  show (both asString cmpStr w x >>= _) = _
  unfold both
  rw [h1, h2]
  show Except.ok (CmpOp.eq.test (cmpStr w.text x.text)) = _
  congr 1
  unfold cmpStr
  rw [cmpNats_eq]
  have : CmpOp.eq.test (@_root_.cmp (List ℕ) List.instLinearOrder.toLT LinearOrder.toDecidableLT (utf16 w.text) (utf16 x.text))
      = decide (Rel .eq (utf16 w.text) (utf16 x.text)) := test_cmp ..
  rw [this]
  apply decide_eq_decide.mpr
  exact ⟨fun e => (utf16_inj e).symm, fun e => by rw [e]; rfl⟩

theorem heterogeneous'_iff (ws : List Value) :
    Cond.containsTest.heterogeneous' (ws.map (fun w => (w, getDataType w))) = true ↔
      ∃ x ∈ ws, ∃ y ∈ ws, getDataType x ≠ getDataType y := by
  cases ws with
  | nil => simp [Cond.containsTest.heterogeneous']
  | cons a ws =>
    rw [List.map_cons, Cond.containsTest.heterogeneous', List.any_eq_true]
    constructor
    · rintro ⟨p, hp, hne⟩
      obtain ⟨w, hw, rfl⟩ := List.mem_map.mp hp
      exact ⟨w, by simp [hw], a, by simp, by simpa using hne⟩
    · rintro ⟨x, hx, y, hy, hne⟩
      by_cases h : getDataType x = getDataType a
      · have h' : getDataType y ≠ getDataType a := fun e => hne (h.trans e.symm)
        rcases List.mem_cons.mp hy with rfl | hy
        · exact absurd rfl h'
        · exact ⟨(y, getDataType y), List.mem_map.mpr ⟨y, hy, rfl⟩, by simpa using h'⟩
      · rcases List.mem_cons.mp hx with rfl | hx
        · exact absurd rfl h
        · exact ⟨(x, getDataType x), List.mem_map.mpr ⟨x, hx, rfl⟩, by simpa using h⟩

theorem validList_string (xs : List Value) : isValidList .string (.list xs) = .ok true := by
  unfold isValidList
  show allM' (isValid .string) xs = _
  rw [allM'_ok (p := fun _ => True) (fun x _ => by simp [isValid])]
  simp

theorem containsTest_hetero {o : ArrOp} {v : Value} {vs : List Value}
    (h : ∃ x ∈ vs.flatMap elements, ∃ y ∈ vs.flatMap elements, getDataType x ≠ getDataType y) :
    Cond.containsTest o v vs = .error .heterogeneousArray := by
  unfold Cond.containsTest
  rw [flattenItems_elements, (heterogeneous'_iff _).mpr h]; rfl

theorem containsTest_homog {o : ArrOp} {v : Value} {vs : List Value}
    (h : ∀ x ∈ vs.flatMap elements, ∀ y ∈ vs.flatMap elements, getDataType x = getDataType y) :
    Cond.containsTest o v vs = logicalArray o v (getDataType v) ((vs.flatMap elements).map (fun w => (w, getDataType w))) := by
  unfold Cond.containsTest
  rw [flattenItems_elements]
  have : Cond.containsTest.heterogeneous' ((vs.flatMap elements).map (fun w => (w, getDataType w))) = false := by
    rw [Bool.eq_false_iff, Ne, heterogeneous'_iff]
    rintro ⟨x, hx, y, hy, hne⟩
    exact hne (h x hx y hy)
  rw [this]; rfl

theorem containsTest_all {xs vs : List Value}
    (h : ∀ x ∈ vs.flatMap elements, ∀ y ∈ vs.flatMap elements, getDataType x = getDataType y)
    (hx : ∀ x ∈ xs, x ≠ .null) (hw : ∀ w ∈ vs.flatMap elements, w ≠ .null) :
    Cond.containsTest .containsAll (.list xs) vs =
      .ok (decide (∀ w ∈ vs.flatMap elements, ∃ x ∈ xs, x.text = w.text)) := by
  rw [containsTest_homog h, logicalArray_eq]
  have hg : getDataType (.list xs) = .string := rfl
  rw [hg, validList_string, ok_bind]
  unfold evalArray
  rw [validList_string]
  show allM' _ _ = _
  rw [allM'_map]
  apply allM'_ok
  intro w hwm
  unfold evalIn
  rw [anyM'_map]
  exact anyM'_ok (fun x hxm => evalEq_text (hw w hwm) (hx x hxm) _)

theorem containsTest_any {xs vs : List Value}
    (h : ∀ x ∈ vs.flatMap elements, ∀ y ∈ vs.flatMap elements, getDataType x = getDataType y)
    (hx : ∀ x ∈ xs, x ≠ .null) (hw : ∀ w ∈ vs.flatMap elements, w ≠ .null) :
    Cond.containsTest .containsAny (.list xs) vs =
      .ok (decide (∃ w ∈ vs.flatMap elements, ∃ x ∈ xs, x.text = w.text)) := by
  rw [containsTest_homog h, logicalArray_eq]
  have hg : getDataType (.list xs) = .string := rfl
  rw [hg, validList_string, ok_bind]
  unfold evalArray
  rw [validList_string]
  show anyM' _ _ = _
  rw [anyM'_map]
  apply anyM'_ok
  intro w hwm
  unfold evalIn
  rw [anyM'_map]
  exact anyM'_ok (fun x hxm => evalEq_text (hw w hwm) (hx x hxm) _)

/-- Not a `List`. -/
theorem containsTest_nonlist {o : ArrOp} {v : Value} {vs : List Value} (hv : ∀ xs, v ≠ .list xs) :
    ∃ e, Cond.containsTest o v vs = .error e := by
  by_cases h : ∃ x ∈ vs.flatMap elements, ∃ y ∈ vs.flatMap elements, getDataType x ≠ getDataType y
  · exact ⟨_, containsTest_hetero h⟩
  · have h' : ∀ x ∈ vs.flatMap elements, ∀ y ∈ vs.flatMap elements, getDataType x = getDataType y := by
      intro x hx y hy
      by_contra hne
      exact h ⟨x, hx, y, hy, hne⟩
    rw [containsTest_homog h', logicalArray_eq]
    cases hl : isValidList (getDataType v) v with
    | error e => exact ⟨e, rfl⟩
    | ok b =>
      cases b with
      | false => exact ⟨_, rfl⟩
      | true =>
        rw [ok_bind]
        unfold evalArray
        rw [hl]
        cases v with
        | list xs => exact absurd rfl (hv xs)
        | _ => exact ⟨_, rfl⟩

end BoolParser
