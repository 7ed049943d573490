import Verif.Model.NullArgs
import Verif.Lemmas.Blame
/-!
# Lemmas about null for the text or the data
-/

namespace BoolParser

/-! ### With data, nothing is new -/

theorem lookupFieldOpt_some (f : Option JStr) (d : Data) : lookupFieldOpt f (some d) = lookupField f d := rfl

theorem requireFieldOpt_some (f : Option JStr) (d : Data) : requireFieldOpt f (some d) = requireField f d := rfl

mutual
theorem evalArithOpt_some (env : Env) (d : Data) : (n : Node) → evalArithOpt env (some d) n = evalArith env d n
  | .arith op l r => by simp only [evalArithOpt, evalArith, evalArithOpt_some env d l, evalArithOpt_some env d r]
  | .neg l => by simp only [evalArithOpt, evalArith, evalArithOpt_some env d l]
  | .func f items => by simp only [evalArithOpt, evalArith, evalArithAllOpt_some env d items]
  | .unary _ _ => by simp only [evalArithOpt, evalArith]
  | .field _ => by simp only [evalArithOpt, evalArith, requireFieldOpt_some]
  | .cmp _ _ _ _ => by simp only [evalArithOpt, evalArith]
  | .range _ _ _ _ _ => by simp only [evalArithOpt, evalArith]
  | .inn _ _ => by simp only [evalArithOpt, evalArith]
  | .array _ _ _ => by simp only [evalArithOpt, evalArith]
  | .and_ _ _ => by simp only [evalArithOpt, evalArith]
  | .or_ _ _ => by simp only [evalArithOpt, evalArith]
  | .not_ _ => by simp only [evalArithOpt, evalArith]
theorem evalArithAllOpt_some (env : Env) (d : Data) : (ns : List Node) → evalArithAllOpt env (some d) ns = evalArithAll env d ns
  | [] => by simp only [evalArithAllOpt, evalArithAll]
  | n :: ns => by simp only [evalArithAllOpt, evalArithAll, evalArithOpt_some env d n, evalArithAllOpt_some env d ns]
end

theorem operandValueOpt_some (env : Env) (d : Data) (n : Node) (b : Result Bool) :
    operandValueOpt env (some d) n b = operandValue env d n b := by
  cases n <;> simp only [operandValueOpt, operandValue, lookupFieldOpt_some, evalArithOpt_some]

theorem itemValueOpt_some (env : Env) (d : Data) (n : Node) (b : Result Bool) :
    itemValueOpt env (some d) n b = itemValue env d n b := by
  simp only [itemValueOpt, itemValue, evalArithOpt_some]

theorem evalRangeOpt_some (d : Data) (f : JStr) (lo hi : Value) (a b : DataType) :
    evalRangeOpt (some d) f lo hi a b = evalRange d f lo hi a b := rfl

theorem evalUnaryOpt_some (d : Data) (dt : DataType) (v : Value) : evalUnaryOpt (some d) dt v = evalUnary d dt v := rfl

mutual
theorem evalBoolOpt_some (env : Env) (d : Data) : (n : Node) → evalBoolOpt env (some d) n = evalBool env d n
  | .cmp l r _ _ => by
    simp only [evalBoolOpt, evalBool, evalBoolOpt_some env d l, evalBoolOpt_some env d r, operandValueOpt_some]
  | .range _ _ _ _ _ => by simp only [evalBoolOpt, evalBool, evalRangeOpt_some]
  | .inn _ items => by simp only [evalBoolOpt, evalBool, requireFieldOpt_some, evalItemsOpt_some env d items]
  | .array _ _ items => by simp only [evalBoolOpt, evalBool, requireFieldOpt_some, evalItemsOpt_some env d items]
  | .unary _ _ => by simp only [evalBoolOpt, evalBool, evalUnaryOpt_some]
  | .and_ l r => by simp only [evalBoolOpt, evalBool, evalBoolOpt_some env d l, evalBoolOpt_some env d r]
  | .or_ l r => by simp only [evalBoolOpt, evalBool, evalBoolOpt_some env d l, evalBoolOpt_some env d r]
  | .not_ l => by simp only [evalBoolOpt, evalBool, evalBoolOpt_some env d l]
  | .field _ => by simp only [evalBoolOpt, evalBool]
  | .arith _ _ _ => by simp only [evalBoolOpt, evalBool]
  | .neg _ => by simp only [evalBoolOpt, evalBool]
  | .func _ _ => by simp only [evalBoolOpt, evalBool]
theorem evalItemsOpt_some (env : Env) (d : Data) : (ns : List Node) → evalItemsOpt env (some d) ns = evalItems env d ns
  | [] => by simp only [evalItemsOpt, evalItems]
  | n :: ns => by
    simp only [evalItemsOpt, evalItems, evalBoolOpt_some env d n, evalItemsOpt_some env d ns, itemValueOpt_some]
end

/-! ### Without data -/

/-- The first fails with a `NullPointerException`, or both end alike. -/
inductive NullOr {α : Type} : Result α → Result α → Prop
  | null {r : Result α} : NullOr (.error .nullPointer) r
  | same (r : Result α) : NullOr r r

namespace NullOr

variable {α β : Type}

theorem out {r s : Result α} (h : NullOr r s) : r = .error .nullPointer ∨ r = s := by
  cases h with
  | null => exact .inl rfl
  | same => exact .inr rfl

theorem bind {r s : Result α} {f g : α → Result β} (h : NullOr r s) (hf : ∀ a, NullOr (f a) (g a)) :
    NullOr (r >>= f) (s >>= g) := by
  cases h with
  | null => exact .null
  | same r =>
    cases r with
    | error e => exact .same _
    | ok a => exact hf a

theorem ite {c : Prop} [Decidable c] {r s r' s' : Result α} (h : NullOr r s) (h' : NullOr r' s') :
    NullOr (if c then r else r') (if c then s else s') := by
  split
  · exact h
  · exact h'

end NullOr

theorem lookupFieldOpt_none (f : Option JStr) (d : Data) : NullOr (lookupFieldOpt f none) (lookupField f d) := by
  cases f with
  | none => exact .same _
  | some k =>
    have e : lookupFieldOpt (some k) none =
        (match splitKey k with
        | [] => .error .indexOutOfBounds
        | _ :: _ => .error .nullPointer) := rfl
    rw [e, show lookupField (some k) d = walkKeys (splitKey k) d from rfl]
    cases splitKey k with
    | nil => rw [walkKeys]; exact .same _
    | cons => exact .null

theorem lookupFieldOpt_fails (f : Option JStr) :
    lookupFieldOpt f none = .error .nullPointer ∨ lookupFieldOpt f none = .error .indexOutOfBounds := by
  cases f with
  | none => exact .inl rfl
  | some k =>
    have e : lookupFieldOpt (some k) none =
        (match splitKey k with
        | [] => .error .indexOutOfBounds
        | _ :: _ => .error .nullPointer) := rfl
    rw [e]
    cases splitKey k with
    | nil => exact .inr rfl
    | cons => exact .inl rfl

theorem requireFieldOpt_none (f : Option JStr) (d : Data) : NullOr (requireFieldOpt f none) (requireField f d) :=
  (lookupFieldOpt_none f d).bind fun _ => .same _

mutual
theorem evalArithOpt_none (env : Env) (d : Data) : (n : Node) → NullOr (evalArithOpt env none n) (evalArith env d n)
  | .arith op l r => by
    simp only [evalArithOpt, evalArith]
    exact (evalArithOpt_none env d l).bind fun _ => (evalArithOpt_none env d r).bind fun _ => .same _
  | .neg l => by
    simp only [evalArithOpt, evalArith]
    exact (evalArithOpt_none env d l).bind fun _ => .same _
  | .func f items => by
    simp only [evalArithOpt, evalArith]
    exact (evalArithAllOpt_none env d items).bind fun _ => .same _
  | .unary _ _ => by simp only [evalArithOpt, evalArith]; exact .same _
  | .field _ => by simp only [evalArithOpt, evalArith]; exact requireFieldOpt_none _ _
  | .cmp _ _ _ _ => by simp only [evalArithOpt, evalArith]; exact .same _
  | .range _ _ _ _ _ => by simp only [evalArithOpt, evalArith]; exact .same _
  | .inn _ _ => by simp only [evalArithOpt, evalArith]; exact .same _
  | .array _ _ _ => by simp only [evalArithOpt, evalArith]; exact .same _
  | .and_ _ _ => by simp only [evalArithOpt, evalArith]; exact .same _
  | .or_ _ _ => by simp only [evalArithOpt, evalArith]; exact .same _
  | .not_ _ => by simp only [evalArithOpt, evalArith]; exact .same _
theorem evalArithAllOpt_none (env : Env) (d : Data) : (ns : List Node) →
    NullOr (evalArithAllOpt env none ns) (evalArithAll env d ns)
  | [] => by simp only [evalArithAllOpt, evalArithAll]; exact .same _
  | n :: ns => by
    simp only [evalArithAllOpt, evalArithAll]
    exact (evalArithOpt_none env d n).bind fun _ => (evalArithAllOpt_none env d ns).bind fun _ => .same _
end

theorem operandValueOpt_none (env : Env) (d : Data) (n : Node) {b b' : Result Bool} (h : NullOr b b') :
    NullOr (operandValueOpt env none n b) (operandValue env d n b') := by
  have rest : NullOr
      (if n.isArithBase then do
        let v ← evalArithOpt env none n
        optOf v
      else do
        let x ← b
        pure (some (.bool x)))
      (if n.isArithBase then do
        let v ← evalArith env d n
        optOf v
      else do
        let x ← b'
        pure (some (.bool x))) :=
    .ite ((evalArithOpt_none env d n).bind fun _ => .same _) (h.bind fun _ => .same _)
  cases n with
  | field f => exact lookupFieldOpt_none f d
  | unary _ v => exact .same _
  | _ => exact rest

theorem itemValueOpt_none (env : Env) (d : Data) (n : Node) {b b' : Result Bool} (h : NullOr b b') :
    NullOr (itemValueOpt env none n b) (itemValue env d n b') :=
  .ite (evalArithOpt_none env d n) (h.bind fun _ => .same _)

theorem evalComparison_nullOr (op : CmpOp) (l r : Node) {lv lv' rv rv' : Result (Option Value)} (hl : NullOr lv lv')
    (hr : NullOr rv rv') : NullOr (evalComparison op l r lv rv) (evalComparison op l r lv' rv') :=
  hl.bind fun _ => (NullOr.same _).bind fun _ => (NullOr.same _).bind fun _ =>
    (NullOr.ite (.same _) (hr.bind fun _ => .same _)).bind fun _ => .same _

theorem evalRangeOpt_none (d : Data) (f : JStr) (lo hi : Value) (a b : DataType) :
    NullOr (evalRangeOpt none f lo hi a b) (evalRange d f lo hi a b) :=
  (requireFieldOpt_none _ d).bind fun _ => .same _

theorem evalUnaryOpt_none (d : Data) (dt : DataType) (v : Value) : NullOr (evalUnaryOpt none dt v) (evalUnary d dt v) :=
  .ite (.same _) ((NullOr.same _).bind fun _ => (requireFieldOpt_none _ d).bind fun _ => .same _)

mutual
theorem evalBoolOpt_none (env : Env) (d : Data) : (n : Node) → NullOr (evalBoolOpt env none n) (evalBool env d n)
  | .cmp l r _ _ => by
    simp only [evalBoolOpt, evalBool]
    exact evalComparison_nullOr _ _ _ (operandValueOpt_none env d l (evalBoolOpt_none env d l))
      (operandValueOpt_none env d r (evalBoolOpt_none env d r))
  | .range _ _ _ _ _ => by simp only [evalBoolOpt, evalBool]; exact evalRangeOpt_none _ _ _ _ _ _
  | .inn _ items => by
    simp only [evalBoolOpt, evalBool]
    exact (requireFieldOpt_none _ d).bind fun _ => (evalItemsOpt_none env d items).bind fun _ => .same _
  | .array _ _ items => by
    simp only [evalBoolOpt, evalBool]
    exact (requireFieldOpt_none _ d).bind fun _ => (evalItemsOpt_none env d items).bind fun _ => .same _
  | .unary _ _ => by simp only [evalBoolOpt, evalBool]; exact evalUnaryOpt_none _ _ _
  | .and_ l r => by
    simp only [evalBoolOpt, evalBool]
    exact (evalBoolOpt_none env d l).bind fun _ => .ite (evalBoolOpt_none env d r) (.same _)
  | .or_ l r => by
    simp only [evalBoolOpt, evalBool]
    exact (evalBoolOpt_none env d l).bind fun _ => .ite (.same _) (evalBoolOpt_none env d r)
  | .not_ l => by
    simp only [evalBoolOpt, evalBool]
    exact (evalBoolOpt_none env d l).bind fun _ => .same _
  | .field _ => by simp only [evalBoolOpt, evalBool]; exact .same _
  | .arith _ _ _ => by simp only [evalBoolOpt, evalBool]; exact .same _
  | .neg _ => by simp only [evalBoolOpt, evalBool]; exact .same _
  | .func _ _ => by simp only [evalBoolOpt, evalBool]; exact .same _
theorem evalItemsOpt_none (env : Env) (d : Data) : (ns : List Node) → NullOr (evalItemsOpt env none ns) (evalItems env d ns)
  | [] => by simp only [evalItemsOpt, evalItems]; exact .same _
  | n :: ns => by
    simp only [evalItemsOpt, evalItems]
    exact (itemValueOpt_none env d n (evalBoolOpt_none env d n)).bind fun _ => (evalItemsOpt_none env d ns).bind fun _ => .same _
end

/-! ### Null data is never reported as a missing value -/

theorem calm_lookupOpt (f : Option JStr) : Calm (lookupFieldOpt f none) := by
  rcases lookupFieldOpt_fails f with e | e <;> rw [e] <;> exact ⟨by intro h; cases h⟩

theorem lookupN_not_none (f : Option JStr) (o : Option Value) : lookupFieldOpt f none ≠ .ok o := by
  rcases lookupFieldOpt_fails f with e | e <;> rw [e] <;> intro h <;> cases h

theorem calm_requireOpt (f : Option JStr) : Calm (requireFieldOpt f none) := by
  constructor
  intro h
  rcases bind_err_inv h with h | ⟨o, h1, _⟩
  · exact (calm_lookupOpt f).out h
  · exact lookupN_not_none f o h1

mutual
theorem calm_evalArithOpt (env : Env) : (n : Node) → Calm (evalArithOpt env none n)
  | .arith op l r => by
    simp only [evalArithOpt]
    exact calm_bind (calm_evalArithOpt env l) fun _ => calm_bind (calm_evalArithOpt env r) fun _ => calm_arithBinary _ _ _ _ _ _
  | .neg l => by
    simp only [evalArithOpt]
    exact calm_bind (calm_evalArithOpt env l) fun _ => calm_arithNegate _ _
  | .func f items => by
    simp only [evalArithOpt]
    exact calm_bind (calm_evalArithAllOpt env items) fun _ => calm_callFn _ _ _
  | .unary _ _ => by simp only [evalArithOpt]; exact calm_ok _
  | .field _ => by simp only [evalArithOpt]; exact calm_requireOpt _
  | .cmp _ _ _ _ => by simp only [evalArithOpt]; exact ⟨by intro h; cases h⟩
  | .range _ _ _ _ _ => by simp only [evalArithOpt]; exact ⟨by intro h; cases h⟩
  | .inn _ _ => by simp only [evalArithOpt]; exact ⟨by intro h; cases h⟩
  | .array _ _ _ => by simp only [evalArithOpt]; exact ⟨by intro h; cases h⟩
  | .and_ _ _ => by simp only [evalArithOpt]; exact ⟨by intro h; cases h⟩
  | .or_ _ _ => by simp only [evalArithOpt]; exact ⟨by intro h; cases h⟩
  | .not_ _ => by simp only [evalArithOpt]; exact ⟨by intro h; cases h⟩
theorem calm_evalArithAllOpt (env : Env) : (ns : List Node) → Calm (evalArithAllOpt env none ns)
  | [] => by simp only [evalArithAllOpt]; exact calm_ok _
  | n :: ns => by
    simp only [evalArithAllOpt]
    exact calm_bind (calm_evalArithOpt env n) fun _ => calm_bind (calm_evalArithAllOpt env ns) fun _ => calm_pure _
end

theorem calm_operandOpt (env : Env) (n : Node) {b : Result Bool} (h : Calm b) : Calm (operandValueOpt env none n b) := by
  have rest : Calm
      (if n.isArithBase then do
        let v ← evalArithOpt env none n
        optOf v
      else do
        let x ← b
        pure (some (.bool x))) := by
    split
    · exact calm_bind (calm_evalArithOpt env n) fun _ => calm_optOf _
    · exact calm_bind h fun _ => calm_pure _
  cases n with
  | field f => exact calm_lookupOpt f
  | unary _ v => exact calm_optOf v
  | _ => exact rest

theorem optOf_not_none (v : Value) : optOf v ≠ .ok none := by
  intro h
  cases v <;> cases h

theorem operandN_not_none (env : Env) (n : Node) (b : Result Bool) : operandValueOpt env none n b ≠ .ok none := by
  have rest :
      (if n.isArithBase then do
        let v ← evalArithOpt env none n
        optOf v
      else do
        let x ← b
        pure (some (.bool x)) : Result (Option Value)) ≠ .ok none := by
    intro h
    split at h
    · obtain ⟨v, _, h⟩ := bind_ok_inv h
      exact optOf_not_none v h
    · obtain ⟨v, _, h⟩ := bind_ok_inv h
      cases h
  cases n with
  | field f => exact lookupN_not_none f none
  | unary _ v => exact optOf_not_none v
  | _ => exact rest

theorem calm_itemOpt (env : Env) (n : Node) {b : Result Bool} (h : Calm b) : Calm (itemValueOpt env none n b) := by
  unfold itemValueOpt
  split
  · exact calm_evalArithOpt env n
  · exact calm_bind h fun _ => calm_pure _

theorem calm_evalUnaryOpt (dt : DataType) (v : Value) : Calm (evalUnaryOpt none dt v) := by
  unfold evalUnaryOpt
  split
  · split <;> exact ⟨by intro h; cases h⟩
  · refine calm_bind (calm_toText v) fun _ => calm_bind (calm_requireOpt _) fun _ => ?_
    split <;> exact ⟨by intro h; cases h⟩

theorem calm_evalRangeOpt (f : JStr) (lo hi : Value) (a b : DataType) : Calm (evalRangeOpt none f lo hi a b) :=
  calm_bind (calm_requireOpt _) fun _ => calm_bind (calm_logicalCmp _ _ _ _ _) fun _ =>
    calm_bind (calm_logicalCmp _ _ _ _ _) fun _ => calm_pure _

mutual
theorem calm_evalBoolOpt (env : Env) : (n : Node) → Calm (evalBoolOpt env none n)
  | .cmp l r _ _ => by
    simp only [evalBoolOpt]
    exact ⟨fun h => evalComparison_blame (P := False) (fun e => (calm_operandOpt env l (calm_evalBoolOpt env l)).out e)
      (fun e => operandN_not_none _ _ _ e) (fun e => (calm_operandOpt env r (calm_evalBoolOpt env r)).out e) h⟩
  | .range _ _ _ _ _ => by simp only [evalBoolOpt]; exact calm_evalRangeOpt _ _ _ _ _
  | .inn _ items => by
    simp only [evalBoolOpt]
    exact calm_bind (calm_requireOpt _) fun _ => calm_bind (calm_evalItemsOpt env items) fun _ => calm_logicalIn _ _ _
  | .array _ _ items => by
    simp only [evalBoolOpt]
    exact calm_bind (calm_requireOpt _) fun _ => calm_bind (calm_evalItemsOpt env items) fun _ =>
      calm_check (by decide) fun _ => calm_logicalArray _ _ _ _
  | .unary _ _ => by simp only [evalBoolOpt]; exact calm_evalUnaryOpt _ _
  | .and_ l r => by
    simp only [evalBoolOpt]
    refine calm_bind (calm_evalBoolOpt env l) fun a => ?_
    split
    · exact calm_evalBoolOpt env r
    · exact calm_pure _
  | .or_ l r => by
    simp only [evalBoolOpt]
    refine calm_bind (calm_evalBoolOpt env l) fun a => ?_
    split
    · exact calm_pure _
    · exact calm_evalBoolOpt env r
  | .not_ l => by
    simp only [evalBoolOpt]
    exact calm_bind (calm_evalBoolOpt env l) fun _ => calm_pure _
  | .field _ => by simp only [evalBoolOpt]; exact calm_ok _
  | .arith _ _ _ => by simp only [evalBoolOpt]; exact calm_ok _
  | .neg _ => by simp only [evalBoolOpt]; exact calm_ok _
  | .func _ _ => by simp only [evalBoolOpt]; exact calm_ok _
theorem calm_evalItemsOpt (env : Env) : (ns : List Node) → Calm (evalItemsOpt env none ns)
  | [] => by simp only [evalItemsOpt]; exact calm_ok _
  | n :: ns => by
    simp only [evalItemsOpt]
    exact calm_bind (calm_itemOpt env n (calm_evalBoolOpt env n)) fun _ => calm_bind (calm_evalItemsOpt env ns) fun _ => calm_pure _
end

/-! ### The caching parser -/

/-- Every entry was stored by a request for a text. -/
def FromTexts (ops : List CacheOpOpt) (c : Cache) : Prop :=
  ∀ k n, (k, n) ∈ c → ∃ s df, CacheOpOpt.request ⟨some s, df⟩ ∈ ops ∧ cacheKeyOpt ⟨some s, df⟩ = k ∧ parseAny s df = .ok n

theorem cachedParseOpt_entries (c : Cache) (r : RequestOpt) :
    (cachedParseOpt c r).2 = c ∨
      ∃ s n, r.expr = some s ∧ parseAny s r.df = .ok n ∧ (cachedParseOpt c r).2 = (cacheKeyOpt r, n) :: c := by
  unfold cachedParseOpt
  split
  · exact .inl rfl
  · split
    · rename_i n h
      unfold parseOpt at h
      split at h
      · rename_i s hs
        exact .inr ⟨s, n, hs, h, rfl⟩
      · cases h
    · exact .inl rfl

theorem fromTexts_after (ops : List CacheOpOpt) : FromTexts ops (cacheAfterOpt ops) := by
  have step : ∀ (todo done : List CacheOpOpt) (c : Cache), FromTexts done c →
      FromTexts (done ++ todo) (todo.foldl cacheStepOpt c) := by
    intro todo
    induction todo with
    | nil => intro done c h; simpa using h
    | cons o todo ih =>
      intro done c h
      have h' : FromTexts (done ++ [o]) (cacheStepOpt c o) := by
        intro k n hk
        have old : (k, n) ∈ c → ∃ s df, CacheOpOpt.request ⟨some s, df⟩ ∈ done ++ [o] ∧
            cacheKeyOpt ⟨some s, df⟩ = k ∧ parseAny s df = .ok n := by
          intro hm
          obtain ⟨s, df, a, b⟩ := h k n hm
          exact ⟨s, df, List.mem_append.2 (.inl a), b⟩
        cases o with
        | evict keep => exact old (List.mem_filter.1 hk).1
        | request r =>
          rcases cachedParseOpt_entries c r with e | ⟨s, m, hs, hp, e⟩
          · have hk' : (k, n) ∈ (cachedParseOpt c r).2 := hk
            rw [e] at hk'
            exact old hk'
          · have hk' : (k, n) ∈ (cachedParseOpt c r).2 := hk
            rw [e] at hk'
            rcases List.mem_cons.1 hk' with e' | hm
            · cases e'
              refine ⟨s, r.df, List.mem_append.2 (.inr ?_), ?_, hp⟩
              · rw [← hs]; exact List.mem_singleton.2 rfl
              · rw [← hs]
            · exact old hm
      have := ih (done ++ [o]) _ h'
      simpa [List.append_assoc] using this
  exact step ops [] [] (by intro k n h; cases h)

theorem find_entry {c : Cache} {k : JStr} {n : Node} (h : c.find k = some n) : (k, n) ∈ c := by
  induction c with
  | nil => cases h
  | cons e es ih =>
    unfold Cache.find at h
    obtain ⟨k', m⟩ := e
    simp only at h
    split at h
    · rename_i e
      cases h
      rw [← e]
      exact List.mem_cons_self ..
    · exact List.mem_cons_of_mem _ (ih h)

end BoolParser
