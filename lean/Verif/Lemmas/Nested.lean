import Verif.Spec.Nested
import Verif.Lemmas.Ask
import Verif.Lemmas.Paths
import Verif.Lemmas.Message
/-!
# Walking through nested maps (for C98)
-/

namespace BoolParser
open Spec

variable {M : Type} {W W' : Maps M} {root : M}

theorem swallow_ok {r : Result (Option Value)} {v : Value} : swallow r = .ok (some v) ↔ r = .ok (some v) := by
  cases r with
  | ok o => exact Iff.rfl
  | error e => cases e <;> simp [swallow]

theorem swallow_error {e : Exn} (h : e ≠ .classCast) : swallow (.error e) = .error e := by
  cases e <;> first | rfl | exact absurd rfl h

/-- The three cases of a step. -/
theorem walk_error {h : List (M × JStr)} {m : M} {k k2 : JStr} {ks : List JStr} {e : Exn} (hw : W h m k = .error e) :
    walkMaps W (k :: k2 :: ks) m h = (h ++ [(m, k)], .error e) := by rw [walkMaps, hw]

theorem walk_inner {h : List (M × JStr)} {m m' : M} {k k2 : JStr} {ks : List JStr} {w : Value}
    (hw : W h m k = .ok (some ⟨w, some m'⟩)) : walkMaps W (k :: k2 :: ks) m h =
      ((walkMaps W (k2 :: ks) m' (h ++ [(m, k)])).1, swallow (walkMaps W (k2 :: ks) m' (h ++ [(m, k)])).2) := by
  rw [walkMaps, hw]

theorem walk_end {h : List (M × JStr)} {m : M} {k k2 : JStr} {ks : List JStr} {o : Option (Gotten M)}
    (hw : W h m k = .ok o) (ho : ∀ w m', o ≠ some ⟨w, some m'⟩) :
    walkMaps W (k :: k2 :: ks) m h = (h ++ [(m, k)], .ok none) := by
  rw [walkMaps, hw]
  cases o with
  | none => rfl
  | some g =>
    obtain ⟨w, i⟩ := g
    cases i with
    | none => rfl
    | some m' => exact absurd rfl (ho w m')

theorem step_cases (r : Result (Option (Gotten M))) : (∃ e, r = .error e) ∨ (∃ w m', r = .ok (some ⟨w, some m'⟩)) ∨
    ∃ o, r = .ok o ∧ ∀ w m', o ≠ some ⟨w, some m'⟩ := by
  cases r with
  | error e => exact .inl ⟨e, rfl⟩
  | ok o =>
    cases o with
    | none => exact .inr (.inr ⟨_, rfl, nofun⟩)
    | some g =>
      obtain ⟨w, i⟩ := g
      cases i with
      | none => exact .inr (.inr ⟨_, rfl, by rintro w m' ⟨⟩⟩)
      | some m' => exact .inr (.inl ⟨w, m', rfl⟩)

theorem walk_prefix : (ks : List JStr) → (m : M) → (h : List (M × JStr)) → h <+: (walkMaps W ks m h).1
  | [], _, h => List.prefix_refl h
  | [_], _, h => List.prefix_append _ _
  | k :: k2 :: ks, m, h => by
    rcases step_cases (W h m k) with ⟨e, hw⟩ | ⟨w, m', hw⟩ | ⟨o, hw, ho⟩
    · rw [walk_error hw]; exact List.prefix_append _ _
    · rw [walk_inner hw]; exact (List.prefix_append _ _).trans (walk_prefix (k2 :: ks) m' _)
    · rw [walk_end hw ho]; exact List.prefix_append _ _

theorem walk_length : (ks : List JStr) → (m : M) → (h : List (M × JStr)) →
    (walkMaps W ks m h).1.length ≤ h.length + ks.length
  | [], _, h => Nat.le_refl _
  | [_], _, h => by simp [walkMaps]
  | k :: k2 :: ks, m, h => by
    rcases step_cases (W h m k) with ⟨e, hw⟩ | ⟨w, m', hw⟩ | ⟨o, hw, ho⟩
    · rw [walk_error hw]; simp
    · rw [walk_inner hw]
      have := walk_length (k2 :: ks) m' (h ++ [(m, k)])
      simp only [List.length_append, List.length_cons, List.length_nil] at *
      omega
    · rw [walk_end hw ho]; simp

/-- The only question after `h` is `q`. -/
theorem one_question {α : Type} {h g : List α} {q q' : α} (hg : h <+: g) (hp : g ++ [q] <+: h ++ [q']) : g = h ∧ q = q' := by
  have h1 : g = h := by
    refine (hg.eq_of_length_le ?_).symm
    have := hp.length_le
    simp only [List.length_append, List.length_cons, List.length_nil] at this
    omega
  subst h1
  have h2 : g ++ [q] = g ++ [q'] := hp.eq_of_length (by simp)
  simp only [List.append_cancel_left_eq, List.cons.injEq, and_true] at h2
  exact ⟨rfl, h2⟩

theorem none_question {α : Type} {h g : List α} {q : α} (hg : h <+: g) (hp : g ++ [q] <+: h) : False := by
  have := hg.length_le
  have := hp.length_le
  simp only [List.length_append, List.length_cons, List.length_nil] at *
  omega

theorem split_question {α : Type} {g h x : List α} {q : α} (hk : g ++ [q] <+: x) (hh : h <+: x) : h <+: g ∨ g ++ [q] <+: h := by
  rcases List.prefix_or_prefix_of_prefix hk hh with h3 | h3
  · exact .inr h3
  · by_cases hl : h.length ≤ g.length
    · exact .inl (List.prefix_of_prefix_length_le h3 (List.prefix_append _ _) hl)
    · refine .inr ?_
      rw [h3.eq_of_length_le (by simp only [List.length_append, List.length_cons, List.length_nil]; omega)]

/-- A call of a walk: to the map it began with, or to the one the call before returned; with one of the keys. -/
theorem walk_call : (ks : List JStr) → (m : M) → (h : List (M × JStr)) → ∀ {g m' k'}, h <+: g →
    g ++ [(m', k')] <+: (walkMaps W ks m h).1 → k' ∈ ks ∧
      (g = h ∧ m' = m ∨ ∃ g' m0 k0 v, h <+: g' ∧ g = g' ++ [(m0, k0)] ∧ W g' m0 k0 = .ok (some ⟨v, some m'⟩))
  | [], _, h, g, m', k', hg, hp => (none_question hg hp).elim
  | [k], m, h, g, m', k', hg, hp => by
    obtain ⟨h1, h2⟩ := one_question hg hp
    cases h2
    exact ⟨by simp, .inl ⟨h1, rfl⟩⟩
  | k :: k2 :: ks, m, h, g, m', k', hg, hp => by
    have stop : g ++ [(m', k')] <+: h ++ [(m, k)] → k' ∈ k :: k2 :: ks ∧ (g = h ∧ m' = m ∨
        ∃ g' m0 k0 v, h <+: g' ∧ g = g' ++ [(m0, k0)] ∧ W g' m0 k0 = .ok (some ⟨v, some m'⟩)) := by
      intro hp
      obtain ⟨h1, h2⟩ := one_question hg hp
      cases h2
      exact ⟨by simp, .inl ⟨h1, rfl⟩⟩
    rcases step_cases (W h m k) with ⟨e, hw⟩ | ⟨w, m1, hw⟩ | ⟨o, hw, ho⟩
    · rw [walk_error hw] at hp; exact stop hp
    · rw [walk_inner hw] at hp
      rcases split_question hp (walk_prefix (k2 :: ks) m1 _) with h1 | h1
      · obtain ⟨h2, h3⟩ := walk_call (k2 :: ks) m1 (h ++ [(m, k)]) h1 hp
        refine ⟨List.mem_cons_of_mem _ h2, .inr ?_⟩
        rcases h3 with ⟨h3, h4⟩ | ⟨g', m0, k0, v, h3, h4, h5⟩
        · subst h4; exact ⟨h, m, k, w, List.prefix_refl h, h3, hw⟩
        · exact ⟨g', m0, k0, v, (List.prefix_append _ _).trans h3, h4, h5⟩
      · exact stop h1
    · rw [walk_end hw ho] at hp; exact stop hp

/-- An exception ends the walk; it is the outcome unless it is a ClassCastException of an inner map. -/
theorem walk_throws : (ks : List JStr) → (m : M) → (h : List (M × JStr)) → ∀ {g q e}, h <+: g →
    g ++ [q] <+: (walkMaps W ks m h).1 → W g q.1 q.2 = .error e → (e ≠ .classCast ∨ g = h) →
    walkMaps W ks m h = (g ++ [q], .error e)
  | [], _, h, g, q, e, hg, hp, _, _ => (none_question hg hp).elim
  | [k], m, h, g, q, e, hg, hp, he, _ => by
    obtain ⟨h1, h2⟩ := one_question hg hp
    subst h1; subst h2
    rw [walkMaps, he]; rfl
  | k :: k2 :: ks, m, h, g, q, e, hg, hp, he, hc => by
    rcases step_cases (W h m k) with ⟨e', hw⟩ | ⟨w, m1, hw⟩ | ⟨o, hw, ho⟩
    · rw [walk_error hw] at hp ⊢
      obtain ⟨h1, h2⟩ := one_question hg hp
      subst h1; subst h2
      rw [hw] at he; cases he; rfl
    · rw [walk_inner hw] at hp ⊢
      rcases split_question hp (walk_prefix (k2 :: ks) m1 _) with h1 | h1
      · have hn : e ≠ .classCast := by
          rcases hc with hc | hc
          · exact hc
          · subst hc
            exact absurd h1.length_le (by simp)
        rw [walk_throws (k2 :: ks) m1 (h ++ [(m, k)]) h1 hp he (.inl hn), swallow_error hn]
      · obtain ⟨h1, h2⟩ := one_question hg h1
        subst h1; subst h2
        rw [hw] at he; cases he
    · rw [walk_end hw ho] at hp
      obtain ⟨h1, h2⟩ := one_question hg hp
      subst h1; subst h2
      rw [hw] at he; cases he

/-- A walk that ended in an exception other than a ClassCastException of an inner map had it at its last call. -/
theorem walk_alike : (ks : List JStr) → (m : M) → (h : List (M × JStr)) →
    (∀ g q, h <+: g → g ++ [q] <+: (walkMaps W ks m h).1 → W g q.1 q.2 = W' g q.1 q.2) →
    walkMaps W ks m h = walkMaps W' ks m h
  | [], _, h, _ => rfl
  | [k], m, h, ha => by
    rw [walkMaps, walkMaps, ha h (m, k) (List.prefix_refl h) (List.prefix_refl _)]
  | k :: k2 :: ks, m, h, ha => by
    have h0 : W h m k = W' h m k := by
      refine ha h (m, k) (List.prefix_refl h) ?_
      rcases step_cases (W h m k) with ⟨e', hw⟩ | ⟨w, m1, hw⟩ | ⟨o, hw, ho⟩
      · rw [walk_error hw]
      · rw [walk_inner hw]; exact walk_prefix (k2 :: ks) m1 _
      · rw [walk_end hw ho]
    rcases step_cases (W h m k) with ⟨e', hw⟩ | ⟨w, m1, hw⟩ | ⟨o, hw, ho⟩
    · rw [walk_error hw, walk_error (h0 ▸ hw)]
    · rw [walk_inner hw] at ha
      rw [walk_inner hw, walk_inner (h0 ▸ hw)]
      rw [walk_alike (k2 :: ks) m1 (h ++ [(m, k)]) fun g q hg hp => ha g q ((List.prefix_append _ _).trans hg) hp]
    · rw [walk_end hw ho, walk_end (h0 ▸ hw) ho]

/-- Nothing instead of a ClassCastException of an inner map. -/
theorem walk_nothing (hW : ∀ h m k, W' h m k = W h m k ∨ (m ≠ root ∧ W h m k = .error .classCast ∧ W' h m k = .ok none))
    (hr : NotInside W root) : (ks : List JStr) → (m : M) → (h : List (M × JStr)) →
    (walkMaps W ks m h).1 = (walkMaps W' ks m h).1 ∧
      swallow (walkMaps W ks m h).2 = swallow (walkMaps W' ks m h).2 ∧
      (m = root → (walkMaps W ks m h).2 = (walkMaps W' ks m h).2)
  | [], _, h => ⟨rfl, rfl, fun _ => rfl⟩
  | [k], m, h => by
    rw [walkMaps, walkMaps]
    rcases hW h m k with e | ⟨hm, e1, e2⟩
    · rw [e]; exact ⟨rfl, rfl, fun _ => rfl⟩
    · rw [e1, e2]; exact ⟨rfl, rfl, fun h => absurd h hm⟩
  | k :: k2 :: ks, m, h => by
    rcases hW h m k with e | ⟨hm, e1, e2⟩
    · rcases step_cases (W h m k) with ⟨e', hw⟩ | ⟨w, m1, hw⟩ | ⟨o, hw, ho⟩
      · rw [walk_error hw, walk_error (e.trans hw)]; exact ⟨rfl, rfl, fun _ => rfl⟩
      · obtain ⟨h1, h2, h3⟩ := walk_nothing hW hr (k2 :: ks) m1 (h ++ [(m, k)])
        rw [walk_inner hw, walk_inner (e.trans hw)]
        exact ⟨h1, by rw [h2], fun _ => h2⟩
      · rw [walk_end hw ho, walk_end (e.trans hw) ho]; exact ⟨rfl, rfl, fun _ => rfl⟩
    · rw [walk_error e1, walk_end e2 nofun]; exact ⟨rfl, rfl, fun h => absurd h hm⟩

theorem walk_route : (ks : List JStr) → (m : M) → (h : List (M × JStr)) → (v : Value) → (h' : List (M × JStr)) →
    (walkMaps W ks m h = (h', .ok (some v)) ↔ ∃ qs, h' = h ++ qs ∧ Route W h m ks qs v)
  | [], _, h, v, h' => by
    constructor
    · intro e; cases e
    · rintro ⟨_, _, hr⟩; cases hr
  | [k], m, h, v, h' => by
    rw [walkMaps]
    constructor
    · intro e
      cases hw : W h m k with
      | error x => rw [hw] at e; cases e
      | ok o =>
        rw [hw] at e
        cases o with
        | none => cases e
        | some g => cases e; exact ⟨_, rfl, .last hw⟩
    · rintro ⟨qs, rfl, hr⟩
      cases hr with
      | last hw => rw [hw]; rfl
  | k :: k2 :: ks, m, h, v, h' => by
    constructor
    · intro e
      rcases step_cases (W h m k) with ⟨x, hw⟩ | ⟨w, m1, hw⟩ | ⟨o, hw, ho⟩
      · rw [walk_error hw] at e; cases e
      · rw [walk_inner hw] at e
        injection e with e1 e2
        rw [swallow_ok] at e2
        obtain ⟨qs, h1, h2⟩ := (walk_route (k2 :: ks) m1 (h ++ [(m, k)]) v h').1 (Prod.ext e1 e2)
        exact ⟨(m, k) :: qs, by rw [h1]; simp, .step hw h2⟩
      · rw [walk_end hw ho] at e; cases e
    · rintro ⟨qs, rfl, hr⟩
      cases hr with
      | step hw hr =>
        rename_i qs m1 w
        have := (walk_route (k2 :: ks) m1 (h ++ [(m, k)]) v _).2 ⟨qs, rfl, hr⟩
        rw [walk_inner hw, this]
        simp [swallow]

theorem walk_plain : (ks : List JStr) → (m : Data) → (h : List (Data × JStr)) → (walkMaps plainMaps ks m h).2 = walkKeys ks m
  | [], _, _ => rfl
  | [k], m, h => by
    rw [walkMaps, walkKeys, plainMaps]
    cases mapGet m k with
    | none => rfl
    | some v => cases v <;> rfl
  | k :: k2 :: ks, m, h => by
    have none_ : ∀ o : Option (Gotten Data), plainMaps h m k = .ok o → (∀ w m', o ≠ some ⟨w, some m'⟩) →
        (walkMaps plainMaps (k :: k2 :: ks) m h).2 = .ok none := fun o h1 h2 => by rw [walk_end h1 h2]
    rw [walkKeys]
    cases e : mapGet m k with
    | none => exact none_ none (by rw [plainMaps, e]) nofun
    | some v =>
      cases v with
      | map es =>
        have hw : plainMaps h m k = .ok (some ⟨.map es, some es⟩) := by rw [plainMaps, e]
        rw [walk_inner hw]
        show swallow (walkMaps plainMaps (k2 :: ks) es _).2 = walkKeys (k2 :: ks) es
        rw [walk_plain (k2 :: ks) es]
        cases hk : walkKeys (k2 :: ks) es with
        | ok o => rfl
        | error x =>
          have := (calm_walk (k2 :: ks) es x hk)
          subst this; rfl
      | null => exact none_ none (by rw [plainMaps, e]) nofun
      | _ => exact none_ (some ⟨_, none⟩) (by rw [plainMaps, e]) (by rintro w m' ⟨⟩)
where
  calm_walk : (ks : List JStr) → (d : Data) → (x : Exn) → walkKeys ks d = .error x → x = .indexOutOfBounds
    | [], _, x, h => by cases h; rfl
    | [k], d, x, h => by
      rw [walkKeys] at h
      split at h <;> cases h
    | k :: k2 :: ks, d, x, h => by
      rw [walkKeys] at h
      split at h
      · exact calm_walk (k2 :: ks) _ x h
      · cases h

/-! ## One name after the other -/

theorem visited_append (h : List (M × JStr)) : (a b : List JStr) → visited W root h (a ++ b) = visited W root (visited W root h a) b
  | [], b => rfl
  | k :: a, b => by rw [List.cons_append, visited, visited, visited_append _ a b]

theorem visited_prefix : (names : List JStr) → (h : List (M × JStr)) → h <+: visited W root h names
  | [], h => List.prefix_refl h
  | k :: ks, h => (walk_prefix _ _ h).trans (visited_prefix ks _)

/-- A call belongs to the look-up of one of the names. -/
theorem visited_call {g : List (M × JStr)} {q : M × JStr} : (names : List JStr) → (h : List (M × JStr)) → h <+: g →
    g ++ [q] <+: visited W root h names → ∃ a n b, names = a ++ n :: b ∧ visited W root h a <+: g ∧
      g ++ [q] <+: (getThrough W root n (visited W root h a)).1
  | [], h, hg, hp => (none_question hg hp).elim
  | n :: ns, h, hg, hp => by
    rcases split_question hp (visited_prefix ns _) with h1 | h1
    · obtain ⟨a, k, b, h2, h3, h4⟩ := visited_call ns _ h1 hp
      exact ⟨n :: a, k, b, by rw [h2]; rfl, h3, h4⟩
    · exact ⟨[], n, ns, rfl, hg, h1⟩

theorem visited_length : (names : List JStr) → (h : List (M × JStr)) →
    (visited W root h names).length ≤ h.length + (names.map fun f => (splitKey f).length).sum
  | [], h => Nat.le_refl _
  | n :: ns, h => by
    have h1 := visited_length ns (getThrough W root n h).1
    have h2 := walk_length (W := W) (splitKey n) root h
    rw [visited]
    simp only [List.map_cons, List.sum_cons]
    unfold getThrough at *
    omega

theorem splitDots_length : (s : JStr) → (splitDotsAll s).length = s.count '.' + 1
  | [] => rfl
  | c :: cs => by
    have ih := splitDots_length cs
    rw [splitDotsAll]
    split
    · rename_i h
      subst h
      simp [ih]
    · rename_i h
      rw [List.count_cons_of_ne (by simpa using h)]
      cases e : splitDotsAll cs with
      | nil => rw [e] at ih; simp at ih
      | cons p ps => rw [e] at ih; simpa using ih

theorem splitDots_splitOn : (s : JStr) → splitDotsAll s = s.splitOn '.'
  | [] => by rw [List.splitOn_nil]; rfl
  | c :: cs => by
    rw [splitDotsAll, List.splitOn_cons_eq_if_modifyHead, splitDots_splitOn cs]
    by_cases h : c = '.'
    · simp [h]
    · have : (c == '.') = false := by simpa using h
      rw [if_neg h, this]
      have hn := List.splitOn_ne_nil '.' cs
      cases e : cs.splitOn '.' with
      | nil => exact absurd e hn
      | cons a l => rfl

theorem splitKey_splitOn {s k : JStr} (h : k ∈ splitKey s) : k ∈ s.splitOn '.' := by
  unfold splitKey at h
  split at h
  · rw [← splitDots_splitOn]
    rw [dropTrailingEmpty, List.mem_reverse] at h
    exact List.mem_reverse.1 ((List.dropWhile_sublist _).subset h)
  · rename_i hd
    rw [List.splitOn_eq_singleton_of_beq_eq_false fun x hx => by
      simp only [beq_eq_false_iff_ne, ne_eq]
      rintro rfl
      exact hd hx]
    exact h

theorem splitKey_length (s : JStr) : (splitKey s).length ≤ s.count '.' + 1 := by
  unfold splitKey
  split
  · rw [← splitDots_length, dropTrailingEmpty, List.length_reverse]
    exact (List.dropWhile_sublist _).length_le.trans (by simp)
  · simp

theorem visited_count (names : List JStr) : (visited W root [] names).length ≤ keyCount names := by
  refine (visited_length names []).trans ?_
  simp only [List.length_nil, Nat.zero_add, keyCount]
  induction names with
  | nil => exact Nat.le_refl _
  | cons n ns ih =>
    simp only [List.map_cons, List.sum_cons]
    exact Nat.add_le_add (splitKey_length n) ih

theorem keyCount_sublist {a b : List JStr} (h : List.Sublist a b) : keyCount a ≤ keyCount b := by
  unfold keyCount
  induction h with
  | slnil => exact Nat.le_refl _
  | cons x _ ih => simp only [List.map_cons, List.sum_cons]; omega
  | cons_cons x _ ih => simp only [List.map_cons, List.sum_cons]; omega

/-! ## Worlds that answer alike -/

theorem visited_alike : (names : List JStr) → (h : List (M × JStr)) →
    (∀ g q, h <+: g → g ++ [q] <+: visited W root h names → W g q.1 q.2 = W' g q.1 q.2) →
    visited W root h names = visited W' root h names
  | [], h, _ => rfl
  | n :: ns, h, ha => by
    have h1 : getThrough W root n h = getThrough W' root n h :=
      walk_alike (splitKey n) root h fun g q hg hp => ha g q hg (hp.trans (visited_prefix ns _))
    rw [visited, visited, ← h1]
    exact visited_alike ns _ fun g q hg hp => ha g q ((walk_prefix _ _ h).trans hg) hp

theorem through_alike {names : List JStr} {k : JStr}
    (ha : ∀ g q, g ++ [q] <+: visited W root [] (names ++ [k]) → W g q.1 q.2 = W' g q.1 q.2) :
    throughMaps W root names k = throughMaps W' root names k := by
  rw [visited_append] at ha
  have h1 : visited W root [] names = visited W' root [] names :=
    visited_alike names [] fun g q _ hp => ha g q (hp.trans (visited_prefix [k] _))
  unfold throughMaps
  rw [← h1]
  unfold getThrough
  rw [walk_alike (splitKey k) root _ fun g q _ hp => ha g q hp]

theorem through_nothing (hW : ∀ h m k, W' h m k = W h m k ∨ (m ≠ root ∧ W h m k = .error .classCast ∧ W' h m k = .ok none))
    (hr : NotInside W root) : throughMaps W root = throughMaps W' root ∧ ∀ h names, visited W root h names = visited W' root h names := by
  have hv : ∀ names h, visited W root h names = visited W' root h names := by
    intro names
    induction names with
    | nil => intro h; rfl
    | cons n ns ih =>
      intro h
      rw [visited, visited, getThrough, getThrough, (walk_nothing hW hr (splitKey n) root h).1]
      exact ih _
  refine ⟨?_, fun h names => hv names h⟩
  funext names k
  unfold throughMaps getThrough
  rw [hv]
  exact (walk_nothing hW hr (splitKey k) root _).2.2 rfl

theorem through_plain (d : Data) : throughMaps plainMaps d = plainMap d := by
  funext names k
  exact walk_plain (splitKey k) d _

end BoolParser
