import Verif.Lemmas.Unfold
/-!
# Arithmetic never yields null
-/

namespace BoolParser

/-- A successful outcome is not null. -/
def NN (r : Result Value) : Prop := ∀ v, r = .ok v → v ≠ .null

theorem nn_err (e : Exn) : NN (.error e) := by intro v h; cases h

theorem nn_ok {v : Value} (h : v ≠ .null) : NN (.ok v) := by
  intro w e; injection e with e; rw [← e]; exact h

theorem nn_bind {α : Type} {r : Result α} {f : α → Result Value} (h : ∀ a, NN (f a)) : NN (r >>= f) := by
  cases r with
  | ok a => exact h a
  | error e => exact nn_err e

theorem nn_ite {c : Prop} [Decidable c] {a b : Result Value} (ha : NN a) (hb : NN b) :
    NN (if c then a else b) := by
  split <;> assumption

theorem castLong_ne (n : Int) : castLong n ≠ .null := by unfold castLong; split <;> simp

theorem castWhole_ne (n : Int) : castWhole n ≠ .null := by unfold castWhole; split <;> simp

theorem nn_castDecimal (d : Dec) : NN (castDecimal d) := by
  unfold castDecimal
  exact nn_ite (nn_bind fun n => nn_ok (by simp)) (nn_ok (by simp))

theorem nn_castDouble (d : Dbl) : NN (castDouble d) := by
  unfold castDouble
  split
  · exact nn_err _
  · exact nn_err _
  · apply nn_ok; split <;> simp

theorem nn_evalArithOp (env : Env) (op : ArithOp) (l : Value) (lt : DataType) (r : Value) (rt : DataType) :
    NN (evalArithOp env op l lt r rt) := by
  cases op <;> simp only [evalArithOp]
  · exact nn_ite (nn_ok (by simp)) (nn_ite (nn_bind fun _ => nn_bind fun _ => nn_ok (by simp))
      (nn_bind fun _ => nn_bind fun _ => nn_ok (castLong_ne _)))
  · exact nn_ite (nn_bind fun _ => nn_bind fun _ => nn_ok (by simp))
      (nn_ite (nn_bind fun _ => nn_bind fun _ => nn_ok (by simp))
        (nn_bind fun _ => nn_bind fun _ => nn_ok (by simp)))
  · exact nn_ite (nn_bind fun _ => nn_bind fun _ => nn_ok (by simp))
      (nn_bind fun _ => nn_bind fun _ => nn_ok (castLong_ne _))
  · exact nn_bind fun _ => nn_bind fun _ => nn_bind fun _ => nn_castDecimal _
  · refine nn_ite (nn_bind fun _ => nn_bind fun _ => ?_) (nn_bind fun _ => nn_bind fun _ => ?_)
    · split
      · exact nn_err _
      · exact nn_ok (by simp)
    · split
      · exact nn_err _
      · exact nn_ok (by simp)
  · exact nn_ite (nn_bind fun _ => nn_bind fun _ => nn_castDouble _)
      (nn_bind fun _ => nn_bind fun _ => nn_castDouble _)

theorem nn_arithBinary (env : Env) (op : ArithOp) (l : Value) (lt : DataType) (r : Value) (rt : DataType) :
    NN (arithBinary env op l lt r rt) := by
  rw [arithBinary_eq]
  exact nn_ite (nn_err _) (nn_bind fun _ => nn_ite (nn_err _) (nn_ite (nn_err _) (nn_bind fun _ =>
    nn_ite (nn_err _) (nn_evalArithOp _ _ _ _ _ _))))

theorem nn_arithNegate (v : Value) (t : DataType) : NN (arithNegate v t) := by
  rw [arithNegate_eq]
  refine nn_ite (nn_err _) (nn_bind fun _ => nn_ite (nn_err _) ?_)
  unfold evalNeg
  split <;> first | exact nn_err _ | exact nn_ok (by simp)

/-! ### Functions -/

theorem nn_minFn (items : List Typed) : NN (minFn items) := by
  unfold minFn
  refine nn_ite (nn_bind fun ds => ?_) (nn_ite (nn_bind fun ds => ?_) (nn_bind fun ds => ?_))
  all_goals
    cases ds with
    | nil => exact nn_err _
    | cons d ds => first | exact nn_castDecimal _ | exact nn_ok (castWhole_ne _)

theorem nn_maxFn (items : List Typed) : NN (maxFn items) := by
  unfold maxFn
  refine nn_ite (nn_bind fun ds => ?_) (nn_ite (nn_bind fun ds => ?_) (nn_bind fun ds => ?_))
  all_goals
    cases ds with
    | nil => exact nn_err _
    | cons d ds => first | exact nn_castDecimal _ | exact nn_ok (castWhole_ne _)

theorem nn_sumFn (items : List Typed) : NN (sumFn items) := by
  unfold sumFn
  exact nn_ite (nn_bind fun ds => nn_castDecimal _) (nn_bind fun ds => nn_ok (castWhole_ne _))

theorem nn_avgFn (items : List Typed) : NN (avgFn items) := by
  unfold avgFn
  exact nn_ite (nn_bind fun ds => nn_bind fun _ => nn_castDecimal _)
    (nn_bind fun ds => nn_bind fun _ => nn_castDecimal _)

theorem nn_medianFn (items : List Typed) : NN (medianFn items) := by
  unfold medianFn
  refine nn_bind fun ds => nn_ite (nn_bind fun _ => nn_bind fun _ => nn_bind fun _ => nn_castDecimal _)
    (nn_bind fun _ => nn_castDecimal _)

theorem modeGo_mem (vs : List Value) (hm : List (Value × Nat)) (mx : Nat) (t : Value) :
    modeGo vs hm mx t = t ∨ modeGo vs hm mx t ∈ vs := by
  induction vs generalizing hm mx t with
  | nil => exact .inl rfl
  | cons v vs ih =>
    rw [modeGo]
    split
    · split
      · rcases ih (putCount hm v _) _ v with h | h
        · rw [h]; right; simp
        · right; exact List.mem_cons_of_mem _ h
      · rcases ih (putCount hm v _) mx t with h | h
        · exact .inl h
        · right; exact List.mem_cons_of_mem _ h
    · rcases ih (putCount hm v _) mx t with h | h
      · exact .inl h
      · right; exact List.mem_cons_of_mem _ h

theorem modeGo_item (x : Typed) (items : List Typed) :
    modeGo ((x :: items).map Prod.fst) [] 1 x.1 ∈ (x :: items).map Prod.fst := by
  rcases modeGo_mem ((x :: items).map Prod.fst) [] 1 x.1 with h | h
  · rw [h]; simp
  · exact h

theorem nn_callFn (env : Env) (f : FuncType) (items : List Typed) (h : ∀ x ∈ items, x.2 = getDataType x.1) :
    NN (callFn env f items) := by
  by_cases hall : items.all (fun x => f.allows x.2) = true
  · rw [callFn_eq]
    refine nn_ite (nn_err _) (nn_ite (nn_err _) (nn_ite (nn_err _) (nn_bind fun _ => ?_)))
    cases f <;> simp only [evalFn]
    · exact nn_minFn _
    · exact nn_maxFn _
    · exact nn_avgFn _
    · exact nn_sumFn _
    · exact nn_avgFn _
    · cases items with
      | nil => exact nn_err _
      | cons x xs =>
        unfold modeFn
        split
        · rename_i heq; cases heq
        rename_i y ys heq
        injection heq with h1 h2
        subst h1 h2
        have hm := modeGo_item x xs
        obtain ⟨y, hy, hy2⟩ := List.mem_map.mp hm
        rw [List.all_eq_true] at hall
        have h3 := hall y hy
        rw [h y hy] at h3
        rw [← hy2]
        split
        · exact nn_castDecimal _
        · exact nn_ok (castLong_ne _)
        · apply nn_ok
          intro e; rw [e] at h3; revert h3; decide
    · exact nn_medianFn _
    · unfold intFn
      cases items with
      | nil => exact nn_err _
      | cons x xs =>
        obtain ⟨v, t⟩ := x
        have h3 := List.all_eq_true.mp hall (v, t) (by simp)
        have h4 := h (v, t) (by simp)
        simp only at h3 h4
        simp only
        refine nn_ite (nn_bind fun _ => nn_ok (by simp)) (nn_ite ?_ (nn_ok ?_))
        · split
          · exact nn_ok (by simp)
          · exact nn_err _
        · intro e; rw [h4, e] at h3; revert h3; decide
    · unfold lenFn
      split <;> exact nn_ok (by simp)
    · unfold daysFn
      split
      · exact nn_ok (by simp)
      · split
        · exact nn_ok (by simp)
        · exact nn_err _
      · exact nn_err _
      · exact nn_err _
  · rw [callFn_eq]
    rw [Bool.not_eq_true] at hall
    rw [hall]
    exact nn_ite (nn_err _) (nn_ite (nn_err _) (nn_err _))

theorem flattenItems_types (vs : List Value) : ∀ x ∈ flattenItems vs, x.2 = getDataType x.1 := by
  induction vs with
  | nil => intro x h; cases h
  | cons v vs ih =>
    intro x h
    rw [flattenItems_cons] at h
    rcases List.mem_append.mp h with h | h
    · split at h
      · obtain ⟨y, _, rfl⟩ := List.mem_map.mp h; rfl
      · obtain ⟨y, _, rfl⟩ := List.mem_map.mp h; rfl
      · simp only [List.mem_singleton] at h; rw [h]
    · exact ih x h

end BoolParser
