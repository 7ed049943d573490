import Verif.Spec.Paths
import Verif.Lemmas.Unfold
import Mathlib.Data.List.Induction
/-!
# Looking up field names
-/

namespace BoolParser
open Spec

/-! ### Maps -/

theorem mapGet_iff (d : Data) (k : JStr) (v : Value) : mapGet d k = some v ↔ HasEntry d k v := by
  induction d with
  | nil => constructor
           · intro h; cases h
           · rintro ⟨pre, post, h, _⟩; cases pre <;> cases h
  | cons e es ih =>
    obtain ⟨k', v'⟩ := e
    unfold mapGet
    by_cases hk : k' = k
    · rw [if_pos hk]
      constructor
      · intro h; injection h with h; subst h; subst hk
        exact ⟨[], es, rfl, by simp⟩
      · rintro ⟨pre, post, h, hp⟩
        cases pre with
        | nil => injection h with h _; injection h with _ h; rw [h]
        | cons p ps =>
          injection h with h _
          exact absurd (by rw [← h]; exact hk) (hp p (by simp))
    · rw [if_neg hk, ih]
      constructor
      · rintro ⟨pre, post, h, hp⟩
        refine ⟨(k', v') :: pre, post, by rw [h]; rfl, ?_⟩
        intro e he
        rcases List.mem_cons.mp he with rfl | he
        · exact hk
        · exact hp e he
      · rintro ⟨pre, post, h, hp⟩
        cases pre with
        | nil => injection h with h _; injection h with h _; exact absurd h hk
        | cons p ps =>
          injection h with _ h
          exact ⟨ps, post, h, fun e he => hp e (by simp [he])⟩

theorem walkKeys_some (ks : List JStr) (d : Data) (v : Value) : walkKeys ks d = .ok (some v) ↔ Reaches d ks v := by
  induction ks generalizing d with
  | nil => constructor <;> intro h <;> cases h
  | cons k ks ih =>
    cases ks with
    | nil =>
      unfold walkKeys
      constructor
      · intro h
        cases hg : mapGet d k with
        | none => rw [hg] at h; cases h
        | some w =>
          rw [hg] at h
          by_cases hn : w = .null
          · subst hn; cases h
          · have : w = v := by
              cases w <;> first | (exact absurd rfl hn) | (injection h with h; injection h)
            subst this
            exact .leaf ((mapGet_iff d k w).mp hg) hn
      · intro h
        cases h with
        | leaf h hn =>
          rw [(mapGet_iff d k v).mpr h]
          cases v <;> first | (exact absurd rfl hn) | rfl
    | cons k2 ks =>
      unfold walkKeys
      constructor
      · intro h
        cases hg : mapGet d k with
        | none => rw [hg] at h; cases h
        | some w =>
          rw [hg] at h
          cases w with
          | map es => exact .step ((mapGet_iff d k _).mp hg) ((ih es).mp h)
          | _ => cases h
      · intro h
        cases h with
        | step h1 h2 => rw [(mapGet_iff d k _).mpr h1]; exact (ih _).mpr h2

theorem walkKeys_ok {ks : List JStr} (h : ks ≠ []) (d : Data) : ∃ o, walkKeys ks d = .ok o := by
  induction ks generalizing d with
  | nil => exact absurd rfl h
  | cons k ks ih =>
    cases ks with
    | nil =>
      unfold walkKeys
      split <;> exact ⟨_, rfl⟩
    | cons k2 ks =>
      unfold walkKeys
      split
      · exact ih (by simp) _
      · exact ⟨_, rfl⟩

theorem walkKeys_none {ks : List JStr} (h : ks ≠ []) (d : Data) : walkKeys ks d = .ok none ↔ Missing d ks := by
  constructor
  · intro hw v hv
    rw [← walkKeys_some, hw] at hv; cases hv
  · intro hm
    obtain ⟨o, ho⟩ := walkKeys_ok h d
    cases o with
    | none => exact ho
    | some v => exact absurd ((walkKeys_some ks d v).mp ho) (hm v)

/-! ### Splitting names -/

theorem splitDotsAll_ne_nil (s : JStr) : splitDotsAll s ≠ [] := by
  cases s with
  | nil => simp [splitDotsAll]
  | cons c cs =>
    unfold splitDotsAll
    split
    · simp
    · split <;> simp

theorem splitDotsAll_nodot {k : JStr} (h : '.' ∉ k) : splitDotsAll k = [k] := by
  induction k with
  | nil => rfl
  | cons c cs ih =>
    simp only [List.mem_cons, not_or] at h
    unfold splitDotsAll
    rw [if_neg (fun e => h.1 e.symm), ih h.2]

theorem splitDotsAll_append {k : JStr} (h : '.' ∉ k) (s : JStr) :
    splitDotsAll (k ++ '.' :: s) = k :: splitDotsAll s := by
  induction k with
  | nil => simp [splitDotsAll]
  | cons c cs ih =>
    simp only [List.mem_cons, not_or] at h
    rw [List.cons_append, splitDotsAll, if_neg (fun e => h.1 e.symm), ih h.2]

theorem splitDotsAll_replicate (n : Nat) : splitDotsAll (List.replicate n '.') = List.replicate (n + 1) [] := by
  induction n with
  | zero => rfl
  | succ n ih => rw [List.replicate_succ, splitDotsAll, if_pos rfl, ih]; rfl

theorem splitDotsAll_join {ks : List JStr} (hne : ks ≠ []) (h : ∀ k ∈ ks, '.' ∉ k) (n : Nat) :
    splitDotsAll (joinDots ks ++ List.replicate n '.') = ks ++ List.replicate n [] := by
  induction ks with
  | nil => exact absurd rfl hne
  | cons k ks ih =>
    cases ks with
    | nil =>
      rw [joinDots]
      cases n with
      | zero => simp [splitDotsAll_nodot (h k (by simp))]
      | succ n =>
        rw [List.replicate_succ, splitDotsAll_append (h k (by simp)), splitDotsAll_replicate]; rfl
    | cons k2 ks =>
      rw [joinDots, List.append_assoc, List.cons_append, splitDotsAll_append (h k (by simp)),
        ih (by simp) (fun x hx => h x (by simp [hx]))]
      rfl

theorem dropTrailing_path {ks : List JStr} (h : ks ≠ []) (hl : ks.getLast? ≠ some []) (n : Nat) :
    dropTrailingEmpty (ks ++ List.replicate n []) = ks := by
  unfold dropTrailingEmpty
  rw [List.reverse_append, List.reverse_replicate, List.dropWhile_append_of_pos
    (by intro a ha; simp [(List.mem_replicate.mp ha).2])]
  have : ks.reverse.dropWhile (· = []) = ks.reverse := by
    cases hr : ks.reverse with
    | nil => rfl
    | cons a as =>
      rw [List.dropWhile_cons_of_neg]
      intro ha
      have ha' : a = [] := by simpa using ha
      subst ha'
      have : ks = as.reverse ++ [[]] := by
        rw [← List.reverse_reverse ks, hr]; simp
      rw [this] at hl; simp at hl
  rw [this, List.reverse_reverse]

theorem joinDots_nodot {ks : List JStr} (h : ks.length ≤ 1) (hd : ∀ k ∈ ks, '.' ∉ k) : '.' ∉ joinDots ks := by
  cases ks with
  | nil => simp [joinDots]
  | cons k ks =>
    cases ks with
    | nil => exact hd k (by simp)
    | cons k2 ks => simp at h

theorem joinDots_dot {k k2 : JStr} {ks : List JStr} : '.' ∈ joinDots (k :: k2 :: ks) := by simp [joinDots]

theorem splitKey_names {f : JStr} {ks : List JStr} (h : Names f ks) : splitKey f = ks := by
  obtain ⟨⟨hne, hd, hl⟩, n, rfl⟩ := h
  unfold splitKey
  split
  · rw [splitDotsAll_join hne hd, dropTrailing_path hne hl]
  · rename_i hdot
    cases n with
    | succ n => exact absurd (by simp) hdot
    | zero =>
      cases ks with
      | nil => exact absurd rfl hne
      | cons k ks =>
        cases ks with
        | nil => simp [joinDots]
        | cons k2 ks => exact absurd (by simp [joinDots]) hdot

/-- The parts a name is split into, joined and split again (as the source does for the remaining parts). -/
theorem splitKey_join {ks : List JStr} (h : IsPath ks) : splitKey (joinDots ks) = ks :=
  splitKey_names ⟨h, 0, by simp⟩

/-! ### Every name is a path -/

theorem splitDotsAll_parts (s : JStr) : ∀ k ∈ splitDotsAll s, '.' ∉ k := by
  induction s with
  | nil => simp [splitDotsAll]
  | cons c cs ih =>
    unfold splitDotsAll
    split
    · intro k hk
      rcases List.mem_cons.mp hk with rfl | hk
      · simp
      · exact ih k hk
    · rename_i hc
      split
      · intro k hk
        rw [List.mem_singleton] at hk; subst hk; simp only [List.mem_singleton]; exact fun e => hc e.symm
      · rename_i p ps he
        rw [he] at ih
        intro k hk
        rcases List.mem_cons.mp hk with rfl | hk
        · simp only [List.mem_cons, not_or]; exact ⟨fun e => hc e.symm, ih p (by simp)⟩
        · exact ih k (by simp [hk])

theorem joinDots_cons {k : JStr} {ks : List JStr} (h : ks ≠ []) : joinDots (k :: ks) = k ++ '.' :: joinDots ks := by
  cases ks with
  | nil => exact absurd rfl h
  | cons k2 ks => rfl

theorem join_splitDotsAll (s : JStr) : joinDots (splitDotsAll s) = s := by
  induction s with
  | nil => rfl
  | cons c cs ih =>
    unfold splitDotsAll
    split
    · rename_i hc
      rw [joinDots_cons (splitDotsAll_ne_nil cs), ih, hc]; rfl
    · split
      · rename_i he; exact absurd he (splitDotsAll_ne_nil cs)
      · rename_i p ps he
        rw [he] at ih
        cases ps with
        | nil => rw [joinDots] at ih ⊢; rw [ih]
        | cons p2 ps => rw [joinDots] at ih ⊢; rw [List.cons_append, ih]

theorem joinDots_trailing {ks : List JStr} (h : ks ≠ []) (n : Nat) :
    joinDots (ks ++ List.replicate n []) = joinDots ks ++ List.replicate n '.' := by
  induction ks with
  | nil => exact absurd rfl h
  | cons k ks ih =>
    cases ks with
    | nil =>
      clear ih
      show joinDots (k :: List.replicate n []) = k ++ _
      have : ∀ n k, joinDots (k :: List.replicate n []) = k ++ List.replicate n '.' := by
        intro n
        induction n with
        | zero => intro k; simp [joinDots]
        | succ n ih => intro k; rw [List.replicate_succ, joinDots, ih]; rfl
      exact this n k
    | cons k2 ks =>
      show joinDots (k :: (k2 :: ks ++ List.replicate n [])) = _
      rw [joinDots_cons (by simp), ih (by simp), joinDots, List.append_assoc]; rfl

/-- Splitting off trailing empty parts. -/
theorem trailing_empty (ps : List JStr) : ∃ ks n, ps = ks ++ List.replicate n [] ∧ ks.getLast? ≠ some [] := by
  induction ps using List.reverseRecOn with
  | nil => exact ⟨[], 0, rfl, by simp⟩
  | append_singleton ps p ih =>
    by_cases hp : p = []
    · obtain ⟨ks, n, rfl, hl⟩ := ih
      exact ⟨ks, n + 1, by rw [hp, List.append_assoc, ← List.replicate_succ'], hl⟩
    · exact ⟨ps ++ [p], 0, by simp, by simpa using hp⟩

/-- Every text with a character other than the dot names a path. -/
theorem names_exists {f : JStr} (h : ∃ c ∈ f, c ≠ '.') : ∃ ks, Names f ks := by
  obtain ⟨ks, n, he, hl⟩ := trailing_empty (splitDotsAll f)
  have hj := join_splitDotsAll f
  have hne : ks ≠ [] := by
    intro e; subst e
    rw [he] at hj
    have : ∀ n, ∀ c ∈ joinDots (List.replicate n []), c = '.' := by
      intro n
      induction n with
      | zero => simp [joinDots]
      | succ n ih =>
        cases n with
        | zero => simp [joinDots]
        | succ n =>
          intro c hc
          rw [List.replicate_succ, joinDots_cons (by simp), List.nil_append] at hc
          rcases List.mem_cons.mp hc with h | h
          · exact h
          · exact ih c h
    obtain ⟨c, hc, hne⟩ := h
    rw [← hj] at hc
    exact hne (this n c (by simpa using hc))
  refine ⟨ks, ⟨hne, ?_, hl⟩, n, ?_⟩
  · intro k hk; exact splitDotsAll_parts f k (by rw [he]; simp [hk])
  · rw [← joinDots_trailing hne, ← he, hj]

theorem isName_names {f : JStr} (h : IsName f) : ∃ ks, Names f ks := by
  obtain ⟨⟨c, cs, rfl, hc⟩, _, _⟩ := h
  refine names_exists ⟨c, by simp, ?_⟩
  rintro rfl
  rcases hc with h | h
  · revert h; decide
  · revert h; decide

theorem names_unique {f : JStr} {ks ks' : List JStr} (h : Names f ks) (h' : Names f ks') : ks = ks' := by
  rw [← splitKey_names h, splitKey_names h']

/-! ### The lookup -/

theorem lookup_some {f : JStr} {ks : List JStr} (h : Names f ks) (d : Data) (v : Value) :
    getValueFromMap f d = .ok (some v) ↔ Reaches d ks v := by
  unfold getValueFromMap; rw [splitKey_names h]; exact walkKeys_some ks d v

theorem lookup_none {f : JStr} {ks : List JStr} (h : Names f ks) (d : Data) :
    getValueFromMap f d = .ok none ↔ Missing d ks := by
  unfold getValueFromMap; rw [splitKey_names h]; exact walkKeys_none h.1.1 d

theorem fieldValue_reaches {f : JStr} {ks : List JStr} (h : Names f ks) {d : Data} {v : Value} (hr : Reaches d ks v) :
    Arith.fieldValue f d = .ok v := by
  unfold Arith.fieldValue; rw [(lookup_some h d v).mpr hr]; rfl

theorem fieldValue_missing {f : JStr} {ks : List JStr} (h : Names f ks) {d : Data} (hm : Missing d ks) :
    Arith.fieldValue f d = .error .dataNotFound := by
  unfold Arith.fieldValue; rw [(lookup_none h d).mpr hm]; rfl

theorem lookup_agree {f : JStr} {ks : List JStr} (h : Names f ks) {d d' : Data} (ha : AgreeOn f d d') :
    getValueFromMap f d = getValueFromMap f d' := by
  cases hg : getValueFromMap f d with
  | error e =>
    unfold getValueFromMap at hg; rw [splitKey_names h] at hg
    obtain ⟨o, ho⟩ := walkKeys_ok h.1.1 d
    rw [ho] at hg; cases hg
  | ok o =>
    symm
    cases o with
    | none =>
      rw [lookup_none h] at hg ⊢
      intro v hv; exact hg v ((ha ks v h).mpr hv)
    | some v =>
      rw [lookup_some h] at hg ⊢
      exact (ha ks v h).mp hg

/-! ### The recursion of the source -/

/-- `ValueUtils.getValueFromMap` literally (`util/ValueUtils.java:20-38`): split, look the first part up, join
the rest and start again on the nested map. The first argument bounds the recursion; the number of characters
is enough. -/
def lookupLiteral : Nat → JStr → Data → Result (Option Value)
  | 0, _, _ => .ok none
  | fuel + 1, key, d =>
    match splitKey key with
    | [] => .error .indexOutOfBounds
    | [k] =>
      match mapGet d k with
      | none => .ok none
      | some .null => .ok none
      | some v => .ok (some v)
    | k :: k2 :: ks =>
      match mapGet d k with
      | some (.map es) => lookupLiteral fuel (joinDots (k2 :: ks)) es
      | _ => .ok none

theorem joinDots_length (ks : List JStr) : ks.length ≤ (joinDots ks).length + 1 := by
  induction ks with
  | nil => simp
  | cons k ks ih =>
    cases ks with
    | nil => simp
    | cons k2 ks => rw [joinDots]; simp at ih ⊢; omega

theorem lookupLiteral_path (fuel : Nat) {ks : List JStr} (h : IsPath ks) (hf : ks.length ≤ fuel) (key : JStr)
    (hk : splitKey key = ks) (d : Data) : lookupLiteral fuel key d = walkKeys ks d := by
  induction fuel generalizing ks key d with
  | zero =>
    cases ks with
    | nil => exact absurd rfl h.1
    | cons k ks => simp at hf
  | succ fuel ih =>
    unfold lookupLiteral
    rw [hk]
    cases ks with
    | nil => exact absurd rfl h.1
    | cons k ks =>
      cases ks with
      | nil => rfl
      | cons k2 ks =>
        have hp : IsPath (k2 :: ks) := ⟨by simp, fun x hx => h.2.1 x (by simp [hx]), by simpa using h.2.2⟩
        unfold walkKeys
        cases hg : mapGet d k with
        | none => simp only [hg]
        | some v =>
          cases v with
          | map es => simp only [hg]; exact ih hp (by simpa using hf) _ (splitKey_join hp) es
          | _ => simp only [hg]

/-- The model's lookup is the source's recursion. -/
theorem getValueFromMap_literal {f : JStr} (hf : ∃ c ∈ f, c ≠ '.') (d : Data) :
    lookupLiteral (f.length + 1) f d = getValueFromMap f d := by
  obtain ⟨ks, hn⟩ := names_exists hf
  have hs := splitKey_names hn
  unfold getValueFromMap
  rw [hs]
  apply lookupLiteral_path _ hn.1 _ _ hs
  obtain ⟨_, n, rfl⟩ := hn
  have := joinDots_length ks
  simp; omega

end BoolParser
