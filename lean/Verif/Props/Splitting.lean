import Verif.Props.Conditions
/-!
# Splitting lists

C68.
-/

namespace BoolParser
open Spec

/-! ## C68 A test against a list can be split -/

theorem values_append (env : Env) (d : Data) (xs ys : List Arith) :
    Arith.values env d (xs ++ ys) = (do
      let vs ← Arith.values env d xs
      let ws ← Arith.values env d ys
      pure (vs ++ ws)) := by
  induction xs with
  | nil =>
    rw [List.nil_append, Arith.values, ok_bind]
    cases Arith.values env d ys <;> rfl
  | cons x xs ih =>
    rw [List.cons_append, Arith.values, Arith.values, ih]
    cases Arith.value env d x with
    | error e => rfl
    | ok v =>
      cases Arith.values env d xs with
      | error e => rfl
      | ok vs => cases Arith.values env d ys <;> rfl

theorem anyM'_append {α : Type} (f : α → Result Bool) (xs ys : List α) :
    anyM' f (xs ++ ys) = (do let a ← anyM' f xs; if a then pure true else anyM' f ys) := by
  induction xs with
  | nil => rfl
  | cons x xs ih =>
    rw [List.cons_append, anyM', anyM', ih]
    cases f x with
    | error e => rfl
    | ok b => cases b <;> rfl

theorem allM'_append {α : Type} (f : α → Result Bool) (xs ys : List α) :
    allM' f (xs ++ ys) = (do let a ← allM' f xs; if a then allM' f ys else pure false) := by
  induction xs with
  | nil => rfl
  | cons x xs ih =>
    rw [List.cons_append, allM', allM', ih]
    cases f x with
    | error e => rfl
    | ok b => cases b <;> rfl

theorem member_append (v : Value) (vs ws : List Value) :
    Cond.member v (vs ++ ws) = (do let a ← Cond.member v vs; if a then pure true else Cond.member v ws) := by
  unfold Cond.member
  rw [logicalIn_eq, logicalIn_eq, logicalIn_eq, flattenItems_elements, flattenItems_elements, flattenItems_elements,
    List.flatMap_append, List.map_append]
  cases isValid (getDataType v) v with
  | error e => rfl
  | ok b =>
    cases b with
    | false => rfl
    | true => exact anyM'_append _ _ _

/-- **C68**, IN: testing against a list is testing against its first part or, failing that, against the rest. (The
items of the second part must have values: they are evaluated before the test, while OR may not come to them.) -/
theorem C68_in {f : JStr} {xs ys : List Arith} {s s' : JStr} (h : Writes s (.isIn f false (xs ++ ys)))
    (h' : Writes s' (.conn false (.isIn f false xs) (.isIn f false ys))) {env : Env} {d : Data} {df : Option JStr}
    (hdf : DefaultOk df) (hys : ∀ y ∈ ys, ∃ v, y.value env d = .ok v) :
    evaluate env s d df = evaluate env s' d df := by
  obtain ⟨ws, hws⟩ := values_exists env d hys
  rw [h.eval env d hdf, h'.eval env d hdf]
  simp only [Cond.meaning, values_append, hws]
  cases Arith.fieldValue f d with
  | error e => rfl
  | ok v =>
    simp only [ok_bind]
    cases Arith.values env d xs with
    | error e => rfl
    | ok vs =>
      simp only [ok_bind, show (pure (vs ++ ws) : Result _) = .ok (vs ++ ws) from rfl, member_append]
      cases Cond.member v vs with
      | error e => rfl
      | ok b =>
        cases b
        · cases Cond.member v ws <;> rfl
        · rfl

/-- **C68**, NOT IN: outside the list is outside both parts. -/
theorem C68_not_in {f : JStr} {xs ys : List Arith} {s s' : JStr} (h : Writes s (.isIn f true (xs ++ ys)))
    (h' : Writes s' (.conn true (.isIn f true xs) (.isIn f true ys))) {env : Env} {d : Data} {df : Option JStr}
    (hdf : DefaultOk df) (hys : ∀ y ∈ ys, ∃ v, y.value env d = .ok v) :
    evaluate env s d df = evaluate env s' d df := by
  obtain ⟨ws, hws⟩ := values_exists env d hys
  rw [h.eval env d hdf, h'.eval env d hdf]
  simp only [Cond.meaning, values_append, hws]
  cases Arith.fieldValue f d with
  | error e => rfl
  | ok v =>
    simp only [ok_bind]
    cases Arith.values env d xs with
    | error e => rfl
    | ok vs =>
      simp only [ok_bind, show (pure (vs ++ ws) : Result _) = .ok (vs ++ ws) from rfl, member_append]
      cases Cond.member v vs with
      | error e => rfl
      | ok b =>
        cases b
        · cases Cond.member v ws <;> rfl
        · rfl

theorem containsTest_append (o : ArrOp) (v : Value) {vs ws : List Value} (ht : OneType ((vs ++ ws).flatMap elements)) :
    Cond.containsTest o v (vs ++ ws) = (do
      let a ← Cond.containsTest o v vs
      match o with
      | .containsAll => if a then Cond.containsTest o v ws else pure false
      | .containsAny => if a then pure true else Cond.containsTest o v ws) := by
  have ht1 : OneType (vs.flatMap elements) := fun x hx y hy =>
    ht x (by rw [List.flatMap_append]; simp [hx]) y (by rw [List.flatMap_append]; simp [hy])
  have ht2 : OneType (ws.flatMap elements) := fun x hx y hy =>
    ht x (by rw [List.flatMap_append]; simp [hx]) y (by rw [List.flatMap_append]; simp [hy])
  rw [containsTest_homog ht, containsTest_homog ht1, containsTest_homog ht2, List.flatMap_append, List.map_append]
  unfold logicalArray evalArray
  cases isValidList (getDataType v) v with
  | error e => rfl
  | ok b =>
    cases b with
    | false => rfl
    | true =>
      cases v with
      | list xs =>
        cases o
        · exact allM'_append _ _ _
        · exact anyM'_append _ _ _
      | _ => rfl

/-- **C68**, CONTAINS_ALL and CONTAINS_ANY: a list contains all (any) items iff it contains all (any) of the first
part and (or) all (any) of the rest. The items must have values and be of one type. -/
theorem C68_contains {f : JStr} {o : ArrOp} {xs ys : List Arith} {s s' : JStr}
    (h : Writes s (.contains f o (xs ++ ys)))
    (h' : Writes s' (.conn (o == .containsAll) (.contains f o xs) (.contains f o ys))) {env : Env} {d : Data}
    {df : Option JStr} (hdf : DefaultOk df) {vs : List Value} (hvs : Arith.values env d (xs ++ ys) = .ok vs)
    (ht : OneType (vs.flatMap elements)) : evaluate env s d df = evaluate env s' d df := by
  rw [h.eval env d hdf, h'.eval env d hdf]
  simp only [Cond.meaning, hvs]
  rw [values_append] at hvs
  cases hx : Arith.values env d xs with
  | error e => rw [hx] at hvs; cases hvs
  | ok v1 =>
    cases hy : Arith.values env d ys with
    | error e => rw [hx, hy] at hvs; cases hvs
    | ok v2 =>
      rw [hx, hy] at hvs
      injection hvs with hvs
      subst hvs
      cases Arith.fieldValue f d with
      | error e => rfl
      | ok v =>
        simp only [ok_bind]
        rw [containsTest_append o v ht]
        cases Cond.containsTest o v v1 with
        | error e => rfl
        | ok b => cases o <;> cases b <;> rfl

example (env : Env) (d : Data) :
    evaluate env j!"a IN (1, 'x', 2.5)" d none = evaluate env j!"a IN (1) OR a IN ('x', 2.5)" d none :=
  C68_in (f := ['a']) (xs := [.lit (.int ['1'])]) (ys := [.lit (.str '\'' ['x']), .lit (.dec ['2'] ['5'])])
    (writes_of (by krfl)) (writes_of (by krfl)) noDefault (by
      intro y hy
      simp only [List.mem_cons, List.not_mem_nil, or_false] at hy
      rcases hy with rfl | rfl <;> exact ⟨_, rfl⟩)

example (env : Env) (d : Data) :
    evaluate env j!"a NOT IN (1, 2)" d none = evaluate env j!"a NOT IN (1) AND a NOT IN (2)" d none :=
  C68_not_in (f := ['a']) (xs := [.lit (.int ['1'])]) (ys := [.lit (.int ['2'])])
    (writes_of (by krfl)) (writes_of (by krfl)) noDefault (by
      intro y hy
      simp only [List.mem_cons, List.not_mem_nil, or_false] at hy
      subst hy; exact ⟨_, rfl⟩)

example (env : Env) (d : Data) :
    evaluate env j!"tags CONTAINS_ALL ('x', 'y', 'z')" d none
      = evaluate env j!"tags CONTAINS_ALL ('x', 'y') AND tags CONTAINS_ALL ('z')" d none :=
  C68_contains (f := j!"tags") (o := .containsAll) (xs := [.lit (.str '\'' ['x']), .lit (.str '\'' ['y'])])
    (ys := [.lit (.str '\'' ['z'])]) (writes_of (by krfl)) (writes_of (by krfl)) noDefault
    (vs := [.str ['x'], .str ['y'], .str ['z']]) rfl
    (by
      intro x hx y hy
      simp [elements] at hx hy
      rcases hx with rfl | rfl | rfl <;> rcases hy with rfl | rfl | rfl <;> rfl)

/-- Without a value for an item of the second part the two differ. -/
theorem C68_missing_item (env : Env) :
    evaluate env j!"a IN (1, b)" [(['a'], .int 1)] none = .failure .dataNotFound ∧
    evaluate env j!"a IN (1) OR a IN (b)" [(['a'], .int 1)] none = .success true := ⟨by krfl, by krfl⟩

end BoolParser
