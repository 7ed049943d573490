import Verif.Model.Session
import Mathlib.Data.List.Induction
import Mathlib.Data.List.Perm.Subperm
/-!
# Histories of caches and registries
-/

namespace BoolParser

/-! ### Cache -/

/-- The requests of a history. -/
def requestsOf (ops : List CacheOp) : List Request :=
  ops.filterMap fun o => match o with
    | .request r => some r
    | .evict _ => none

theorem Cache.find_mem {c : Cache} {k : JStr} {n : Node} (h : c.find k = some n) : (k, n) ∈ c := by
  induction c with
  | nil => cases h
  | cons p es ih =>
    obtain ⟨k', n'⟩ := p
    rw [Cache.find] at h
    split at h
    · rename_i e; cases h; rw [e]; simp
    · exact List.mem_cons_of_mem _ (ih h)

theorem Cache.find_none {c : Cache} {k : JStr} (h : c.find k = none) : k ∉ c.map Prod.fst := by
  induction c with
  | nil => simp
  | cons p es ih =>
    obtain ⟨k', n'⟩ := p
    rw [Cache.find] at h
    split at h
    · cases h
    · rename_i e
      simp only [List.map_cons, List.mem_cons, not_or]
      exact ⟨fun e' => e e'.symm, ih h⟩

/-- Every entry stems from a successful request. -/
def Sound (P : Request → Result Node) (rs : List Request) (c : Cache) : Prop :=
  ∀ k n, (k, n) ∈ c → ∃ r ∈ rs, cacheKey r = k ∧ P r = .ok n

theorem Sound.mono {P : Request → Result Node} {rs rs' : List Request} {c : Cache} (h : Sound P rs c)
    (hs : ∀ r ∈ rs, r ∈ rs') : Sound P rs' c := by
  intro k n hm
  obtain ⟨r, hr, h1⟩ := h k n hm
  exact ⟨r, hs r hr, h1⟩

theorem sound_request {P : Request → Result Node} {rs : List Request} {c : Cache} (h : Sound P rs c) (r : Request) :
    Sound P (rs ++ [r]) (cachedParse P c r).2 := by
  have hm := h.mono (rs' := rs ++ [r]) (fun r hr => List.mem_append_left _ hr)
  rw [cachedParse]
  cases hf : c.find (cacheKey r) with
  | some n => exact hm
  | none =>
    cases hp : P r with
    | error e => exact hm
    | ok n =>
      intro k n' hmem
      rcases List.mem_cons.mp hmem with e | hmem
      · cases e; exact ⟨r, by simp, rfl, hp⟩
      · exact hm k n' hmem

theorem sound_step {P : Request → Result Node} {ops : List CacheOp} {c : Cache} (h : Sound P (requestsOf ops) c)
    (o : CacheOp) : Sound P (requestsOf (ops ++ [o])) (cacheStep P c o) := by
  cases o with
  | request r =>
    have : requestsOf (ops ++ [.request r]) = requestsOf ops ++ [r] := by simp [requestsOf]
    rw [this]; exact sound_request h r
  | evict keep =>
    have : requestsOf (ops ++ [.evict keep]) = requestsOf ops := by simp [requestsOf]
    rw [this]
    intro k n hm
    rw [cacheStep, List.mem_filter] at hm
    exact h k n hm.1

theorem cacheAfter_append (P : Request → Result Node) (ops : List CacheOp) (o : CacheOp) :
    cacheAfter P (ops ++ [o]) = cacheStep P (cacheAfter P ops) o := by
  rw [cacheAfter, cacheAfter, List.foldl_append]; rfl

theorem sound_after (P : Request → Result Node) (ops : List CacheOp) : Sound P (requestsOf ops) (cacheAfter P ops) := by
  induction ops using List.reverseRecOn with
  | nil => intro k n h; cases h
  | append_singleton ops o ih => rw [cacheAfter_append]; exact sound_step ih o

theorem keys_request {P : Request → Result Node} {c : Cache} (h : (c.map Prod.fst).Nodup) (r : Request) :
    ((cachedParse P c r).2.map Prod.fst).Nodup := by
  rw [cachedParse]
  cases hf : c.find (cacheKey r) with
  | some n => exact h
  | none =>
    cases hp : P r with
    | error e => exact h
    | ok n => exact List.nodup_cons.mpr ⟨Cache.find_none hf, h⟩

theorem keys_step {P : Request → Result Node} {c : Cache} (h : (c.map Prod.fst).Nodup) (o : CacheOp) :
    ((cacheStep P c o).map Prod.fst).Nodup := by
  cases o with
  | request r => exact keys_request h r
  | evict keep => exact h.sublist ((List.filter_sublist (l := c)).map _)

theorem keys_after (P : Request → Result Node) (ops : List CacheOp) : ((cacheAfter P ops).map Prod.fst).Nodup := by
  induction ops using List.reverseRecOn with
  | nil => simp [cacheAfter]
  | append_singleton ops o ih => rw [cacheAfter_append]; exact keys_step ih o

theorem request_length (P : Request → Result Node) (c : Cache) (r : Request) :
    (cachedParse P c r).2.length ≤ c.length + 1 := by
  rw [cachedParse]
  cases c.find (cacheKey r) with
  | some n => simp
  | none => cases P r <;> simp

/-- If no earlier request has the same key but another parse, the cache is transparent. -/
theorem transparent {P : Request → Result Node} {rs : List Request} {c : Cache} (hs : Sound P rs c) {r : Request}
    (h : ∀ r' ∈ rs, cacheKey r' = cacheKey r → P r' = P r) : (cachedParse P c r).1 = P r := by
  rw [cachedParse]
  cases hf : c.find (cacheKey r) with
  | some n =>
    obtain ⟨r', hr', hk, hp⟩ := hs _ _ (Cache.find_mem hf)
    rw [← h r' hr' hk, hp]
  | none => cases P r <;> rfl

/-! ### Keys -/

/-- A default field that is absent, or a non-empty name without `_`. -/
def Distinguishable (r : Request) : Prop := ∀ f, r.df = some f → f ≠ [] ∧ '_' ∉ f

theorem split_last {a a' b b' : JStr} (hb : '_' ∉ b) (hb' : '_' ∉ b') (h : a ++ '_' :: b = a' ++ '_' :: b') :
    a = a' ∧ b = b' := by
  induction a generalizing a' with
  | nil =>
    cases a' with
    | nil => simpa using h
    | cons c cs =>
      simp only [List.nil_append, List.cons_append, List.cons.injEq] at h
      exact absurd (h.2 ▸ by simp : '_' ∈ b) hb
  | cons c cs ih =>
    cases a' with
    | nil =>
      simp only [List.nil_append, List.cons_append, List.cons.injEq] at h
      exact absurd (h.2 ▸ by simp : '_' ∈ b') hb'
    | cons c' cs' =>
      simp only [List.cons_append, List.cons.injEq] at h
      obtain ⟨e1, e2⟩ := ih h.2
      exact ⟨by rw [h.1, e1], e2⟩

theorem key_inj {r r' : Request} (h : Distinguishable r) (h' : Distinguishable r') (hk : cacheKey r = cacheKey r') :
    r = r' := by
  obtain ⟨e, df⟩ := r
  obtain ⟨e', df'⟩ := r'
  have hmem : ∀ {x : Option JStr}, (∀ f, x = some f → f ≠ [] ∧ '_' ∉ f) → '_' ∉ x.getD [] := by
    intro x hx
    cases x with
    | none => simp
    | some f => exact (hx f rfl).2
  simp only [cacheKey, List.append_assoc, List.singleton_append] at hk
  obtain ⟨e1, e2⟩ := split_last (hmem h) (hmem h') hk
  subst e1
  cases df with
  | none =>
    cases df' with
    | none => rfl
    | some f' => exact absurd e2.symm (h' f' rfl).1
  | some f =>
    cases df' with
    | none => exact absurd e2 (h f rfl).1
    | some f' => simp only [Option.getD_some] at e2; rw [e2]

/-! ### Registry -/

theorem run_append (r : Registry) (ps qs : List (Slot × Impl)) : r.run (ps ++ qs) = (r.run ps).run qs := by
  simp [Registry.run, List.foldl_append]

theorem run_last (r : Registry) (ps : List (Slot × Impl)) (s : Slot) :
    r.run ps s = r s ∨ ∃ i, (s, i) ∈ ps ∧ r.run ps s = some i := by
  induction ps generalizing r with
  | nil => exact .inl rfl
  | cons p ps ih =>
    obtain ⟨s', i⟩ := p
    have e : r.run ((s', i) :: ps) = (r.put s' i).run ps := rfl
    rw [e]
    rcases ih (r.put s' i) with h | ⟨j, hj, h⟩
    · by_cases hs : s = s'
      · subst hs
        exact .inr ⟨i, by simp, by rw [h, Registry.put, if_pos rfl]⟩
      · rw [h, Registry.put, if_neg hs]; exact .inl rfl
    · exact .inr ⟨j, by simp [hj], h⟩

theorem run_hit {ps : List (Slot × Impl)} {s : Slot} (r : Registry) (h : ∃ i, (s, i) ∈ ps) :
    ∃ i, (s, i) ∈ ps ∧ r.run ps s = some i := by
  induction ps generalizing r with
  | nil => obtain ⟨i, hi⟩ := h; cases hi
  | cons p ps ih =>
    obtain ⟨s', i⟩ := p
    have e : r.run ((s', i) :: ps) = (r.put s' i).run ps := rfl
    rw [e]
    by_cases hin : ∃ i, (s, i) ∈ ps
    · obtain ⟨j, hj, h⟩ := ih (r.put s' i) hin
      exact ⟨j, by simp [hj], h⟩
    · obtain ⟨j, hj⟩ := h
      rcases List.mem_cons.mp hj with e | hj
      · cases e
        rcases run_last (r.put s i) ps s with h | ⟨k, hk, _⟩
        · exact ⟨i, by simp, by rw [h, Registry.put, if_pos rfl]⟩
        · exact absurd ⟨k, hk⟩ hin
      · exact absurd ⟨j, hj⟩ hin

theorem ctor_builtin (c : Ctor) : ∀ p ∈ c.puts, p.2 = .builtin := by
  have : c.puts.all (fun p => p.2 == .builtin) = true := by cases c <;> rfl
  intro p hp
  simpa using List.all_eq_true.mp this p hp

theorem evaluator_covers {c : Ctor} (h : c = .arithEvaluator ∨ c = .boolEvaluator) (s : Slot) :
    (s, Impl.builtin) ∈ c.puts := by
  rcases h with rfl | rfl
  · cases s with
    | dataType t => cases t <;> decide
    | operator o => cases o <;> decide
    | function f => cases f <;> decide
  · cases s with
    | dataType t => cases t <;> decide
    | operator o => cases o <;> decide
    | function f => cases f <;> decide

end BoolParser
