import Verif.Model.Ask
import Verif.Spec.Size
import Verif.Lemmas.CondNode
/-!
# What the evaluators ask a map for
-/

namespace BoolParser
open Spec

theorem ask_bind {α β : Type} (m : Ask α) (f : α → Ask β) (h : List JStr) : (m >>= f) h =
    match m h with
    | (h', .ok a) => f a h'
    | (h', .error e) => (h', .error e) := rfl

/-! ## With plain data it is the evaluation of `Model/Eval` -/

/-- Whatever was asked before, the outcome is `r`. -/
def Erases {α : Type} (m : Ask α) (r : Result α) : Prop := ∀ h, (m h).2 = r

theorem erases_told {α : Type} (r : Result α) : Erases (told r) r := fun _ => rfl

theorem erases_bind {α β : Type} {m : Ask α} {r : Result α} {f : α → Ask β} {g : α → Result β} (h : Erases m r)
    (hf : ∀ a, Erases (f a) (g a)) : Erases (m >>= f) (r >>= g) := by
  intro h0
  have h1 := h h0
  rw [ask_bind]
  generalize m h0 = x at *
  obtain ⟨h', y⟩ := x
  subst h1
  cases y with
  | ok a => exact hf a h'
  | error e => rfl

theorem erases_ask (d : Data) (f : Option JStr) : Erases (askField (plainMap d) f) (lookupField f d) := by
  intro h; cases f <;> rfl

theorem erases_required (d : Data) (f : Option JStr) : Erases (askRequired (plainMap d) f) (requireField f d) := by
  refine erases_bind (erases_ask d f) fun o => ?_
  cases o <;> exact erases_told _

mutual
theorem evalArithA_erases (env : Env) (d : Data) : (n : Node) → Erases (evalArithA (plainMap d) env n) (evalArith env d n)
  | .arith op l r => by
    simp only [evalArithA, evalArith]
    exact erases_bind (evalArithA_erases env d l) fun a => erases_bind (evalArithA_erases env d r) fun b => erases_told _
  | .neg l => by
    simp only [evalArithA, evalArith]
    exact erases_bind (evalArithA_erases env d l) fun a => erases_told _
  | .func f items => by
    simp only [evalArithA, evalArith]
    exact erases_bind (evalArithAllA_erases env d items) fun a => erases_told _
  | .unary _ v => by simp only [evalArithA, evalArith]; exact erases_told _
  | .field f => by simp only [evalArithA, evalArith]; exact erases_required d f
  | .cmp _ _ _ _ => by simp only [evalArithA, evalArith]; exact erases_told _
  | .range _ _ _ _ _ => by simp only [evalArithA, evalArith]; exact erases_told _
  | .inn _ _ => by simp only [evalArithA, evalArith]; exact erases_told _
  | .array _ _ _ => by simp only [evalArithA, evalArith]; exact erases_told _
  | .and_ _ _ => by simp only [evalArithA, evalArith]; exact erases_told _
  | .or_ _ _ => by simp only [evalArithA, evalArith]; exact erases_told _
  | .not_ _ => by simp only [evalArithA, evalArith]; exact erases_told _
theorem evalArithAllA_erases (env : Env) (d : Data) : (ns : List Node) →
    Erases (evalArithAllA (plainMap d) env ns) (evalArithAll env d ns)
  | [] => by simp only [evalArithAllA, evalArithAll]; exact erases_told _
  | n :: ns => by
    simp only [evalArithAllA, evalArithAll]
    exact erases_bind (evalArithA_erases env d n) fun a => erases_bind (evalArithAllA_erases env d ns) fun b => erases_told _
end

theorem operandValueA_erases (env : Env) (d : Data) (n : Node) {b : Ask Bool} {r : Result Bool} (h : Erases b r) :
    Erases (operandValueA (plainMap d) env n b) (operandValue env d n r) := by
  cases n with
  | field f => exact erases_ask d f
  | unary dt v => exact erases_told _
  | arith op l r => exact erases_bind (evalArithA_erases env d _) fun v => erases_told _
  | neg l => exact erases_bind (evalArithA_erases env d _) fun v => erases_told _
  | func f items => exact erases_bind (evalArithA_erases env d _) fun v => erases_told _
  | _ => exact erases_bind h fun x => erases_told _

theorem erases_eq {α : Type} {m : Ask α} {r r' : Result α} (h : Erases m r) (e : r = r') : Erases m r' := e ▸ h

theorem evalComparisonA_erases (op : CmpOp) (l r : Node) {lv rv : Ask (Option Value)} {lv' rv' : Result (Option Value)}
    (hl : Erases lv lv') (hr : Erases rv rv') : Erases (evalComparisonA op l r lv rv) (evalComparison op l r lv' rv') := by
  unfold evalComparisonA evalComparison
  refine erases_bind hl fun lo => erases_bind (erases_told _) fun nc => ?_
  refine erases_bind (erases_eq (erases_told _) ?_) fun a => ?_
  · unfold leftGiven; rfl
  · refine erases_bind ?_ fun b => erases_told _
    unfold rightAsked
    cases nc
    · refine erases_bind hr fun ro => ?_
      cases ro <;> exact erases_told _
    · exact erases_told _

theorem itemValueA_erases (env : Env) (d : Data) (n : Node) {b : Ask Bool} {r : Result Bool} (h : Erases b r) :
    Erases (itemValueA (plainMap d) env n b) (itemValue env d n r) := by
  unfold itemValueA itemValue
  split
  · exact evalArithA_erases env d n
  · exact erases_bind h fun x => erases_told _

theorem evalUnaryA_erases (d : Data) (dt : DataType) (v : Value) : Erases (evalUnaryA (plainMap d) dt v) (evalUnary d dt v) := by
  unfold evalUnaryA evalUnary
  split
  · refine erases_eq (erases_told _) ?_
    cases v <;> rfl
  · refine erases_bind (erases_told _) fun k => erases_bind (erases_required d _) fun x => ?_
    refine erases_eq (erases_told _) ?_
    cases x <;> rfl

mutual
theorem evalBoolA_erases (env : Env) (d : Data) : (n : Node) → Erases (evalBoolA (plainMap d) env n) (evalBool env d n)
  | .cmp l r op dt => by
    simp only [evalBoolA, evalBool]
    exact evalComparisonA_erases op l r (operandValueA_erases env d l (evalBoolA_erases env d l))
      (operandValueA_erases env d r (evalBoolA_erases env d r))
  | .range f lo hi loT hiT => by
    simp only [evalBoolA, evalBool]
    exact erases_bind (erases_required d _) fun v => erases_told _
  | .inn f items => by
    simp only [evalBoolA, evalBool]
    exact erases_bind (erases_required d _) fun v => erases_bind (evalItemsA_erases env d items) fun vs => erases_told _
  | .array f op items => by
    simp only [evalBoolA, evalBool]
    exact erases_bind (erases_required d _) fun v => erases_bind (evalItemsA_erases env d items) fun vs => erases_told _
  | .unary dt v => by simp only [evalBoolA, evalBool]; exact evalUnaryA_erases d dt v
  | .and_ l r => by
    simp only [evalBoolA, evalBool]
    refine erases_bind (evalBoolA_erases env d l) fun a => ?_
    cases a
    · exact erases_told _
    · exact evalBoolA_erases env d r
  | .or_ l r => by
    simp only [evalBoolA, evalBool]
    refine erases_bind (evalBoolA_erases env d l) fun a => ?_
    cases a
    · exact evalBoolA_erases env d r
    · exact erases_told _
  | .not_ l => by
    simp only [evalBoolA, evalBool]
    exact erases_bind (evalBoolA_erases env d l) fun a => erases_told _
  | .field _ => by simp only [evalBoolA, evalBool]; exact erases_told _
  | .arith _ _ _ => by simp only [evalBoolA, evalBool]; exact erases_told _
  | .neg _ => by simp only [evalBoolA, evalBool]; exact erases_told _
  | .func _ _ => by simp only [evalBoolA, evalBool]; exact erases_told _
theorem evalItemsA_erases (env : Env) (d : Data) : (ns : List Node) →
    Erases (evalItemsA (plainMap d) env ns) (evalItems env d ns)
  | [] => by simp only [evalItemsA, evalItems]; exact erases_told _
  | n :: ns => by
    simp only [evalItemsA, evalItems]
    exact erases_bind (itemValueA_erases env d n (evalBoolA_erases env d n)) fun a =>
      erases_bind (evalItemsA_erases env d ns) fun b => erases_told _
end

/-! ## Which names are asked for -/

mutual
/-- The names of a node in order; `v`: it stands for a value, not for a truth value. -/
def Node.names (v : Bool) : Node → List JStr
  | .cmp l r _ _ => l.names true ++ r.names true
  | .range f _ _ _ _ => [f]
  | .inn f items => f :: namesAll items
  | .array f _ items => f :: namesAll items
  | .unary dt x => if v || dt == .boolean then [] else (toText x).toOption.toList
  | .and_ l r => l.names false ++ r.names false
  | .or_ l r => l.names false ++ r.names false
  | .not_ l => l.names false
  | .field f => if v then f.toList else []
  | .arith _ l r => if v then l.names true ++ r.names true else []
  | .neg l => if v then l.names true else []
  | .func _ items => if v then namesAll items else []
def namesAll : List Node → List JStr
  | [] => []
  | n :: ns => n.names true ++ namesAll ns
end

mutual
theorem names_count : (n : Node) → (v : Bool) → (n.names v).length ≤ nodeCount n
  | .cmp l r _ _, _ => by
    have := names_count l true; have := names_count r true
    simp only [Node.names, nodeCount, List.length_append]; omega
  | .range _ _ _ _ _, _ => by simp only [Node.names, nodeCount, List.length_cons, List.length_nil]; omega
  | .inn _ items, _ => by have := namesAll_count items; simp only [Node.names, nodeCount, List.length_cons]; omega
  | .array _ _ items, _ => by have := namesAll_count items; simp only [Node.names, nodeCount, List.length_cons]; omega
  | .unary dt x, v => by
    simp only [Node.names, nodeCount]
    split
    · exact Nat.zero_le _
    · cases (toText x).toOption <;> simp
  | .and_ l r, _ => by
    have := names_count l false; have := names_count r false
    simp only [Node.names, nodeCount, List.length_append]; omega
  | .or_ l r, _ => by
    have := names_count l false; have := names_count r false
    simp only [Node.names, nodeCount, List.length_append]; omega
  | .not_ l, _ => by have := names_count l false; simp only [Node.names, nodeCount]; omega
  | .field f, v => by cases v <;> cases f <;> simp [Node.names, nodeCount]
  | .arith _ l r, v => by
    have := names_count l true; have := names_count r true
    cases v <;> simp only [Node.names, nodeCount, if_true, Bool.false_eq_true, if_false, List.length_append, List.length_nil] <;> omega
  | .neg l, v => by
    have := names_count l true
    cases v <;> simp only [Node.names, nodeCount, if_true, Bool.false_eq_true, if_false, List.length_nil] <;> omega
  | .func _ items, v => by
    have := namesAll_count items
    cases v <;> simp only [Node.names, nodeCount, if_true, Bool.false_eq_true, if_false, List.length_nil] <;> omega
theorem namesAll_count : (ns : List Node) → (namesAll ns).length ≤ nodeCounts ns
  | [] => Nat.le_refl _
  | n :: ns => by
    have := names_count n true; have := namesAll_count ns
    simp only [namesAll, nodeCounts, List.length_append]; omega
end

/-- The names asked for are among `names`, in this order. -/
def AsksFrom {α : Type} (names : List JStr) (m : Ask α) : Prop := ∀ h, ∃ l, (m h).1 = h ++ l ∧ List.Sublist l names

theorem from_told {α : Type} (r : Result α) {names : List JStr} : AsksFrom names (told r) :=
  fun h => ⟨[], (List.append_nil h).symm, List.nil_sublist _⟩

theorem from_bind {α β : Type} {m : Ask α} {f : α → Ask β} {a b : List JStr} (h : AsksFrom a m)
    (hf : ∀ x, AsksFrom b (f x)) : AsksFrom (a ++ b) (m >>= f) := by
  intro h0
  obtain ⟨l, e, hl⟩ := h h0
  rw [ask_bind]
  generalize m h0 = x at *
  obtain ⟨h', y⟩ := x
  simp only at e
  subst e
  cases y with
  | ok a =>
    obtain ⟨l', e', hl'⟩ := hf a (h0 ++ l)
    exact ⟨l ++ l', by simp only; rw [e', List.append_assoc], hl.append hl'⟩
  | error e => exact ⟨l, rfl, hl.trans (List.sublist_append_left _ _)⟩

theorem from_last {α β : Type} {m : Ask α} {f : α → Ask β} {a : List JStr} (h : AsksFrom a m)
    (hf : ∀ x, AsksFrom [] (f x)) : AsksFrom a (m >>= f) := by
  have := from_bind h hf
  rwa [List.append_nil] at this

theorem from_first {α β : Type} {m : Ask α} {f : α → Ask β} {a : List JStr} (h : AsksFrom [] m)
    (hf : ∀ x, AsksFrom a (f x)) : AsksFrom a (m >>= f) := from_bind (a := []) h hf

theorem from_more {α : Type} {m : Ask α} {a b : List JStr} (h : AsksFrom a m) (hs : List.Sublist a b) : AsksFrom b m := by
  intro h0
  obtain ⟨l, e, hl⟩ := h h0
  exact ⟨l, e, hl.trans hs⟩

variable (S : UserMap)

theorem from_ask (f : Option JStr) : AsksFrom f.toList (askField S f) := by
  cases f with
  | none => exact from_told _
  | some k => exact fun h => ⟨[k], rfl, List.Sublist.refl _⟩

theorem from_required (f : Option JStr) : AsksFrom f.toList (askRequired S f) :=
  from_last (from_ask S f) fun o => by cases o <;> exact from_told _

mutual
theorem evalArithA_from (env : Env) : (n : Node) → AsksFrom (n.names true) (evalArithA S env n)
  | .arith op l r => by
    simp only [evalArithA, Node.names, if_true]
    exact from_bind (evalArithA_from env l) fun a => from_last (evalArithA_from env r) fun b => from_told _
  | .neg l => by
    simp only [evalArithA, Node.names, if_true]
    exact from_last (evalArithA_from env l) fun a => from_told _
  | .func f items => by
    simp only [evalArithA, Node.names, if_true]
    exact from_last (evalArithAllA_from env items) fun a => from_told _
  | .unary _ v => by simp only [evalArithA]; exact from_told _
  | .field f => by simp only [evalArithA, Node.names, if_true]; exact from_required S f
  | .cmp _ _ _ _ => by simp only [evalArithA]; exact from_told _
  | .range _ _ _ _ _ => by simp only [evalArithA]; exact from_told _
  | .inn _ _ => by simp only [evalArithA]; exact from_told _
  | .array _ _ _ => by simp only [evalArithA]; exact from_told _
  | .and_ _ _ => by simp only [evalArithA]; exact from_told _
  | .or_ _ _ => by simp only [evalArithA]; exact from_told _
  | .not_ _ => by simp only [evalArithA]; exact from_told _
theorem evalArithAllA_from (env : Env) : (ns : List Node) → AsksFrom (namesAll ns) (evalArithAllA S env ns)
  | [] => by simp only [evalArithAllA]; exact from_told _
  | n :: ns => by
    simp only [evalArithAllA, namesAll]
    exact from_bind (evalArithA_from env n) fun a => from_last (evalArithAllA_from env ns) fun b => from_told _
end

/-- Arithmetic nodes have no names where a truth value is expected. -/
theorem names_false_true (n : Node) : List.Sublist (n.names false) (n.names true) ∨ ∃ dt x, n = .unary dt x := by
  cases n with
  | unary dt x => exact .inr ⟨_, _, rfl⟩
  | field f => exact .inl (List.nil_sublist _)
  | arith op l r => exact .inl (List.nil_sublist _)
  | neg l => exact .inl (List.nil_sublist _)
  | func f items => exact .inl (List.nil_sublist _)
  | _ => exact .inl (by simp only [Node.names]; exact List.Sublist.refl _)

theorem operandValueA_from (env : Env) (n : Node) {b : Ask Bool} (h : AsksFrom (n.names false) b) :
    AsksFrom (n.names true) (operandValueA S env n b) := by
  have key : (∀ dt x, n ≠ .unary dt x) → AsksFrom (n.names true) b := fun hu =>
    from_more h ((names_false_true n).resolve_right fun ⟨dt, x, e⟩ => hu dt x e)
  cases n with
  | field f => simp only [operandValueA, Node.names, if_true]; exact from_ask S f
  | unary dt v => exact from_told _
  | arith op l r => exact from_last (evalArithA_from S env _) fun v => from_told _
  | neg l => exact from_last (evalArithA_from S env _) fun v => from_told _
  | func f items => exact from_last (evalArithA_from S env _) fun v => from_told _
  | _ => exact from_last (key nofun) fun x => from_told _

theorem itemValueA_from (env : Env) (n : Node) {b : Ask Bool} (h : AsksFrom (n.names false) b) :
    AsksFrom (n.names true) (itemValueA S env n b) := by
  have key : (∀ dt x, n ≠ .unary dt x) → AsksFrom (n.names true) b := fun hu =>
    from_more h ((names_false_true n).resolve_right fun ⟨dt, x, e⟩ => hu dt x e)
  cases n with
  | field f => exact evalArithA_from S env _
  | unary dt v => exact evalArithA_from S env _
  | arith op l r => exact evalArithA_from S env _
  | neg l => exact evalArithA_from S env _
  | func f items => exact evalArithA_from S env _
  | _ => exact from_last (key nofun) fun x => from_told _

theorem evalComparisonA_from (op : CmpOp) (l r : Node) {lv rv : Ask (Option Value)} {a b : List JStr}
    (hl : AsksFrom a lv) (hr : AsksFrom b rv) : AsksFrom (a ++ b) (evalComparisonA op l r lv rv) := by
  unfold evalComparisonA
  refine from_bind hl fun lo => from_first (from_told _) fun nc => from_first (from_told _) fun x => ?_
  refine from_last ?_ fun y => from_told _
  unfold rightAsked
  cases nc
  · exact from_last hr fun ro => from_told _
  · exact from_told _

theorem evalUnaryA_from (dt : DataType) (v : Value) : AsksFrom ((Node.unary dt v).names false) (evalUnaryA S dt v) := by
  unfold evalUnaryA
  simp only [Node.names, Bool.false_or]
  split
  · exact from_told _
  · cases e : toText v with
    | error x => exact from_told _
    | ok k =>
      show AsksFrom [k] (askRequired S (some k) >>= fun x => told (boolOperand x))
      exact from_last (from_required S (some k)) fun x => from_told _

mutual
theorem evalBoolA_from (env : Env) : (n : Node) → AsksFrom (n.names false) (evalBoolA S env n)
  | .cmp l r op dt => by
    simp only [evalBoolA, Node.names]
    exact evalComparisonA_from op l r (operandValueA_from S env l (evalBoolA_from env l))
      (operandValueA_from S env r (evalBoolA_from env r))
  | .range f lo hi loT hiT => by
    simp only [evalBoolA, Node.names]
    exact from_last (from_required S (some f)) fun v => from_told _
  | .inn f items => by
    simp only [evalBoolA, Node.names]
    exact from_bind (from_required S (some f)) fun v => from_last (evalItemsA_from env items) fun vs => from_told _
  | .array f op items => by
    simp only [evalBoolA, Node.names]
    exact from_bind (from_required S (some f)) fun v => from_last (evalItemsA_from env items) fun vs => from_told _
  | .unary dt v => by simp only [evalBoolA]; exact evalUnaryA_from S dt v
  | .and_ l r => by
    simp only [evalBoolA, Node.names]
    refine from_bind (evalBoolA_from env l) fun a => ?_
    cases a
    · exact from_told _
    · exact evalBoolA_from env r
  | .or_ l r => by
    simp only [evalBoolA, Node.names]
    refine from_bind (evalBoolA_from env l) fun a => ?_
    cases a
    · exact evalBoolA_from env r
    · exact from_told _
  | .not_ l => by
    simp only [evalBoolA, Node.names]
    exact from_last (evalBoolA_from env l) fun a => from_told _
  | .field _ => by simp only [evalBoolA]; exact from_told _
  | .arith _ _ _ => by simp only [evalBoolA]; exact from_told _
  | .neg _ => by simp only [evalBoolA]; exact from_told _
  | .func _ _ => by simp only [evalBoolA]; exact from_told _
theorem evalItemsA_from (env : Env) : (ns : List Node) → AsksFrom (namesAll ns) (evalItemsA S env ns)
  | [] => by simp only [evalItemsA]; exact from_told _
  | n :: ns => by
    simp only [evalItemsA, namesAll]
    exact from_bind (itemValueA_from S env n (evalBoolA_from env n)) fun a =>
      from_last (evalItemsA_from env ns) fun b => from_told _
end

/-! ## All of them, one after the other -/

/-- The names are asked for one after the other; all of them, unless something fails before. -/
def AsksAll {α : Type} (names : List JStr) (m : Ask α) : Prop :=
  ∀ h, ∃ l, (m h).1 = h ++ l ∧ l <+: names ∧ (∀ a, (m h).2 = .ok a → l = names)

theorem all_told {α : Type} (r : Result α) : AsksAll [] (told r) :=
  fun h => ⟨[], (List.append_nil h).symm, List.nil_prefix, fun _ _ => rfl⟩

theorem all_fail {α : Type} (e : Exn) {names : List JStr} : AsksAll names (told (.error e) : Ask α) :=
  fun h => ⟨[], (List.append_nil h).symm, List.nil_prefix, nofun⟩

theorem all_bind {α β : Type} {m : Ask α} {f : α → Ask β} {a b : List JStr} (h : AsksAll a m)
    (hf : ∀ x, AsksAll b (f x)) : AsksAll (a ++ b) (m >>= f) := by
  intro h0
  obtain ⟨l, e, hl, hs⟩ := h h0
  rw [ask_bind]
  generalize m h0 = x at *
  obtain ⟨h', y⟩ := x
  simp only at e hs
  subst e
  cases y with
  | ok x =>
    obtain ⟨l', e', hl', hs'⟩ := hf x (h0 ++ l)
    have := hs x rfl
    subst this
    refine ⟨l ++ l', by simp only; rw [e', List.append_assoc], ?_, fun y hy => ?_⟩
    · exact List.prefix_append_right_inj _ |>.2 hl'
    · rw [hs' y hy]
  | error e => exact ⟨l, rfl, hl.trans (List.prefix_append _ _), nofun⟩

theorem all_last {α β : Type} {m : Ask α} {f : α → Ask β} {a : List JStr} (h : AsksAll a m)
    (hf : ∀ x, AsksAll [] (f x)) : AsksAll a (m >>= f) := by
  have := all_bind h hf
  rwa [List.append_nil] at this

theorem all_first {α β : Type} {m : Ask α} {f : α → Ask β} {a : List JStr} (h : AsksAll [] m)
    (hf : ∀ x, AsksAll a (f x)) : AsksAll a (m >>= f) := all_bind (a := []) h hf

theorem all_ask (f : Option JStr) : AsksAll f.toList (askField S f) := by
  cases f with
  | none => exact all_fail _
  | some k => exact fun h => ⟨[k], rfl, List.prefix_refl _, fun _ _ => rfl⟩

theorem all_required (f : Option JStr) : AsksAll f.toList (askRequired S f) :=
  all_last (all_ask S f) fun o => by cases o <;> exact all_told _

mutual
theorem evalArithA_all (env : Env) : (n : Node) → AsksAll (n.names true) (evalArithA S env n)
  | .arith op l r => by
    simp only [evalArithA, Node.names, if_true]
    exact all_bind (evalArithA_all env l) fun a => all_last (evalArithA_all env r) fun b => all_told _
  | .neg l => by
    simp only [evalArithA, Node.names, if_true]
    exact all_last (evalArithA_all env l) fun a => all_told _
  | .func f items => by
    simp only [evalArithA, Node.names, if_true]
    exact all_last (evalArithAllA_all env items) fun a => all_told _
  | .unary _ v => by simp only [evalArithA, Node.names, Bool.true_or, if_true]; exact all_told _
  | .field f => by simp only [evalArithA, Node.names, if_true]; exact all_required S f
  | .cmp _ _ _ _ => by simp only [evalArithA]; exact all_fail _
  | .range _ _ _ _ _ => by simp only [evalArithA]; exact all_fail _
  | .inn _ _ => by simp only [evalArithA]; exact all_fail _
  | .array _ _ _ => by simp only [evalArithA]; exact all_fail _
  | .and_ _ _ => by simp only [evalArithA]; exact all_fail _
  | .or_ _ _ => by simp only [evalArithA]; exact all_fail _
  | .not_ _ => by simp only [evalArithA]; exact all_fail _
theorem evalArithAllA_all (env : Env) : (ns : List Node) → AsksAll (namesAll ns) (evalArithAllA S env ns)
  | [] => by simp only [evalArithAllA, namesAll]; exact all_told _
  | n :: ns => by
    simp only [evalArithAllA, namesAll]
    exact all_bind (evalArithA_all env n) fun a => all_last (evalArithAllA_all env ns) fun b => all_told _
end

/-! ## Relations between two evaluations -/

/-- A relation between computations over two maps that evaluation preserves. -/
structure LiftsAsk (S S' : UserMap) (P : ∀ {α : Type}, Ask α → Ask α → Prop) : Prop where
  told : ∀ {α : Type} (r : Result α), P (told r) (told r)
  bind : ∀ {α β : Type} {m m' : Ask α} {f f' : α → Ask β}, P m m' → (∀ x, P (f x) (f' x)) → P (m >>= f) (m' >>= f')
  ask : ∀ f : Option JStr, P (askField S f) (askField S' f)

variable {S} {S' : UserMap} {P : ∀ {α : Type}, Ask α → Ask α → Prop}

theorem lift_required (L : LiftsAsk S S' @P) (f : Option JStr) : P (askRequired S f) (askRequired S' f) :=
  L.bind (L.ask f) fun o => by cases o <;> exact L.told _

mutual
theorem evalArithA_lift (L : LiftsAsk S S' @P) (env : Env) : (n : Node) → P (evalArithA S env n) (evalArithA S' env n)
  | .arith op l r => by
    simp only [evalArithA]
    exact L.bind (evalArithA_lift L env l) fun a => L.bind (evalArithA_lift L env r) fun b => L.told _
  | .neg l => by
    simp only [evalArithA]
    exact L.bind (evalArithA_lift L env l) fun a => L.told _
  | .func f items => by
    simp only [evalArithA]
    exact L.bind (evalArithAllA_lift L env items) fun a => L.told _
  | .unary _ v => by simp only [evalArithA]; exact L.told _
  | .field f => by simp only [evalArithA]; exact lift_required L f
  | .cmp _ _ _ _ => by simp only [evalArithA]; exact L.told _
  | .range _ _ _ _ _ => by simp only [evalArithA]; exact L.told _
  | .inn _ _ => by simp only [evalArithA]; exact L.told _
  | .array _ _ _ => by simp only [evalArithA]; exact L.told _
  | .and_ _ _ => by simp only [evalArithA]; exact L.told _
  | .or_ _ _ => by simp only [evalArithA]; exact L.told _
  | .not_ _ => by simp only [evalArithA]; exact L.told _
theorem evalArithAllA_lift (L : LiftsAsk S S' @P) (env : Env) : (ns : List Node) → P (evalArithAllA S env ns) (evalArithAllA S' env ns)
  | [] => by simp only [evalArithAllA]; exact L.told _
  | n :: ns => by
    simp only [evalArithAllA]
    exact L.bind (evalArithA_lift L env n) fun a => L.bind (evalArithAllA_lift L env ns) fun b => L.told _
end

theorem operandValueA_lift (L : LiftsAsk S S' @P) (env : Env) (n : Node) {b b' : Ask Bool} (h : P b b') :
    P (operandValueA S env n b) (operandValueA S' env n b') := by
  cases n with
  | field f => exact L.ask f
  | unary dt v => exact L.told _
  | arith op l r => exact L.bind (evalArithA_lift L env _) fun v => L.told _
  | neg l => exact L.bind (evalArithA_lift L env _) fun v => L.told _
  | func f items => exact L.bind (evalArithA_lift L env _) fun v => L.told _
  | _ => exact L.bind h fun x => L.told _

theorem itemValueA_lift (L : LiftsAsk S S' @P) (env : Env) (n : Node) {b b' : Ask Bool} (h : P b b') :
    P (itemValueA S env n b) (itemValueA S' env n b') := by
  unfold itemValueA
  split
  · exact evalArithA_lift L env n
  · exact L.bind h fun x => L.told _

theorem evalComparisonA_lift (L : LiftsAsk S S' @P) (op : CmpOp) (l r : Node) {lv rv lv' rv' : Ask (Option Value)}
    (hl : P lv lv') (hr : P rv rv') :
    P (evalComparisonA op l r lv rv) (evalComparisonA op l r lv' rv') := by
  unfold evalComparisonA
  refine L.bind hl fun lo => L.bind (L.told _) fun nc => L.bind (L.told _) fun x => ?_
  refine L.bind ?_ fun y => L.told _
  unfold rightAsked
  cases nc
  · exact L.bind hr fun ro => L.told _
  · exact L.told _

theorem evalUnaryA_lift (L : LiftsAsk S S' @P) (dt : DataType) (v : Value) : P (evalUnaryA S dt v) (evalUnaryA S' dt v) := by
  unfold evalUnaryA
  split
  · exact L.told _
  · exact L.bind (L.told _) fun k => L.bind (lift_required L (some k)) fun x => L.told _

mutual
theorem evalBoolA_lift (L : LiftsAsk S S' @P) (env : Env) : (n : Node) → P (evalBoolA S env n) (evalBoolA S' env n)
  | .cmp l r op dt => by
    simp only [evalBoolA]
    exact evalComparisonA_lift L op l r (operandValueA_lift L env l (evalBoolA_lift L env l))
      (operandValueA_lift L env r (evalBoolA_lift L env r))
  | .range f lo hi loT hiT => by
    simp only [evalBoolA]
    exact L.bind (lift_required L (some f)) fun v => L.told _
  | .inn f items => by
    simp only [evalBoolA]
    exact L.bind (lift_required L (some f)) fun v => L.bind (evalItemsA_lift L env items) fun vs => L.told _
  | .array f op items => by
    simp only [evalBoolA]
    exact L.bind (lift_required L (some f)) fun v => L.bind (evalItemsA_lift L env items) fun vs => L.told _
  | .unary dt v => by simp only [evalBoolA]; exact evalUnaryA_lift L dt v
  | .and_ l r => by
    simp only [evalBoolA]
    refine L.bind (evalBoolA_lift L env l) fun a => ?_
    cases a
    · exact L.told _
    · exact evalBoolA_lift L env r
  | .or_ l r => by
    simp only [evalBoolA]
    refine L.bind (evalBoolA_lift L env l) fun a => ?_
    cases a
    · exact evalBoolA_lift L env r
    · exact L.told _
  | .not_ l => by
    simp only [evalBoolA]
    exact L.bind (evalBoolA_lift L env l) fun a => L.told _
  | .field _ => by simp only [evalBoolA]; exact L.told _
  | .arith _ _ _ => by simp only [evalBoolA]; exact L.told _
  | .neg _ => by simp only [evalBoolA]; exact L.told _
  | .func _ _ => by simp only [evalBoolA]; exact L.told _
theorem evalItemsA_lift (L : LiftsAsk S S' @P) (env : Env) : (ns : List Node) → P (evalItemsA S env ns) (evalItemsA S' env ns)
  | [] => by simp only [evalItemsA]; exact L.told _
  | n :: ns => by
    simp only [evalItemsA]
    exact L.bind (itemValueA_lift L env n (evalBoolA_lift L env n)) fun a =>
      L.bind (evalItemsA_lift L env ns) fun b => L.told _
end

/-! ## Only the answers count -/

/-- The two maps answer alike wherever the first one is asked, so both give the same. -/
def Alike2 {α : Type} (S S' : UserMap) (m m' : Ask α) : Prop :=
  ∀ h, h <+: (m h).1 ∧ ((∀ g k, h <+: g → g ++ [k] <+: (m h).1 → S g k = S' g k) → m h = m' h)

theorem alike_told {α : Type} (r : Result α) : Alike2 S S' (told r) (told r) :=
  fun h => ⟨List.prefix_refl h, fun _ => rfl⟩

theorem alike_bind {α β : Type} {m m' : Ask α} {f f' : α → Ask β} (h : Alike2 S S' m m')
    (hf : ∀ x, Alike2 S S' (f x) (f' x)) : Alike2 S S' (m >>= f) (m' >>= f') := by
  intro h0
  obtain ⟨hp, he⟩ := h h0
  have key : (m h0).1 <+: ((m >>= f) h0).1 := by
    rw [ask_bind]
    generalize m h0 = x
    obtain ⟨h', y⟩ := x
    cases y with
    | ok a => exact (hf a h').1
    | error e => exact List.prefix_refl _
  refine ⟨hp.trans key, fun hag => ?_⟩
  have e := he fun g k hg hk => hag g k hg (hk.trans key)
  rw [ask_bind, ask_bind, ← e]
  rw [ask_bind] at hag
  generalize m h0 = x at *
  obtain ⟨h', y⟩ := x
  cases y with
  | ok a =>
    refine (hf a h').2 fun g k hg hk => hag g k (hp.trans hg) hk
  | error e => rfl

theorem alike_ask (f : Option JStr) : Alike2 S S' (askField S f) (askField S' f) := by
  cases f with
  | none => exact alike_told _
  | some k =>
    refine fun h => ⟨List.prefix_append _ _, fun hag => ?_⟩
    show (h ++ [k], S h k) = (h ++ [k], S' h k)
    rw [hag h k (List.prefix_refl _) (List.prefix_refl _)]

theorem alike_lifts (S S' : UserMap) : LiftsAsk S S' (Alike2 S S') := ⟨alike_told, alike_bind, alike_ask⟩

/-! ## Going on where another evaluation ended -/

/-- `m` after `g` does what `m'` does from the start. -/
def Shifted (g : List JStr) {α : Type} (m m' : Ask α) : Prop := ∀ h, m (g ++ h) = (g ++ (m' h).1, (m' h).2)

theorem shift_lifts (S : UserMap) (g : List JStr) : LiftsAsk S (S.after g) (Shifted g) where
  told _ _ := rfl
  bind := by
    intro α β m m' f f' h hf h0
    rw [ask_bind, ask_bind, h h0]
    generalize m' h0 = x
    obtain ⟨h', y⟩ := x
    cases y with
    | ok a => exact hf a h'
    | error e => rfl
  ask f := by
    cases f with
    | none => exact fun _ => rfl
    | some k =>
      intro h
      show (g ++ h ++ [k], S (g ++ h) k) = (g ++ (h ++ [k]), S (g ++ h) k)
      rw [List.append_assoc]

/-! ## A map that throws -/

/-- When the map throws, that is the end. -/
def StopsAt {α : Type} (S : UserMap) (m _m' : Ask α) : Prop :=
  ∀ h, h <+: (m h).1 ∧ ∀ g k e, h <+: g → g ++ [k] <+: (m h).1 → S g k = .error e → m h = (g ++ [k], .error e)

theorem stops_lifts (S : UserMap) : LiftsAsk S S (StopsAt S) where
  told r h := by
    refine ⟨List.prefix_refl h, fun g k e hg hp _ => ?_⟩
    have := hg.length_le
    have := hp.length_le
    simp only [told, List.length_append, List.length_cons, List.length_nil] at *
    omega
  bind := by
    intro α β m m' f f' h hf h0
    obtain ⟨hp, hs⟩ := h h0
    rw [ask_bind]
    generalize m h0 = x at *
    obtain ⟨h', y⟩ := x
    cases y with
    | error e0 =>
      refine ⟨hp, fun g k e hg hk he => ?_⟩
      have := hs g k e hg hk he
      cases this; rfl
    | ok a =>
      obtain ⟨hp2, hs2⟩ := hf a h'
      refine ⟨hp.trans hp2, fun g k e hg hk he => ?_⟩
      by_cases hc : h' <+: g
      · exact hs2 g k e hc hk he
      · have h1 : g <+: (f a h').1 := (List.prefix_append _ _).trans hk
        have h2 : g ++ [k] <+: h' := by
          rcases List.prefix_or_prefix_of_prefix hk hp2 with h3 | h3
          · exact h3
          · rcases List.prefix_or_prefix_of_prefix h3 (List.prefix_append g [k]) with h4 | h4
            · exact absurd h4 hc
            · obtain ⟨t, ht⟩ := h4
              subst ht
              rw [List.prefix_append_right_inj] at h3
              cases t with
              | nil => exact absurd (by simp) hc
              | cons x t =>
                have := h3.length_le
                simp only [List.length_cons, List.length_nil] at this
                have ht : t = [] := List.length_eq_zero_iff.1 (by omega)
                subst ht
                obtain ⟨u, hu⟩ := h3
                simp only [List.cons_append, List.nil_append, List.cons.injEq] at hu
                rw [hu.1]
                exact List.prefix_refl _
        have := hs g k e hg h2 he
        cases this
  ask f := by
    cases f with
    | none =>
      intro h
      refine ⟨List.prefix_refl h, fun g k e hg hp _ => ?_⟩
      have := hg.length_le
      have := hp.length_le
      simp only [askField, told, List.length_append, List.length_cons, List.length_nil] at *
      omega
    | some k =>
      refine fun h => ⟨List.prefix_append _ _, fun g k' e hg hp he => ?_⟩
      have h1 : g = h := by
        refine (hg.eq_of_length_le ?_).symm
        have := hp.length_le
        simp only [askField, List.length_append, List.length_cons, List.length_nil] at this
        omega
      subst h1
      have h2 : g ++ [k'] = g ++ [k] := hp.eq_of_length (by simp [askField])
      simp only [List.append_cancel_left_eq, List.cons.injEq, and_true] at h2
      subst h2
      show (g ++ [k'], S g k') = _
      rw [he]

end BoolParser
