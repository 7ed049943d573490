import Verif.Lemmas.RecoveryClean
/-!
# The listener on trees of the grammar, and whole texts
-/

namespace BoolParser

theorem up_startType : (t : Tree) → t.up.startType = t.startType
  | .cmp _ l _ => up_startType l
  | .arith _ l _ => up_startType l
  | .bin _ l _ => up_startType l
  | .types _ _ => rfl
  | .paren _ => rfl
  | .not_ _ => rfl
  | .neg _ => rfl
  | .func _ _ => rfl
  | .to_ _ _ _ => rfl
  | .in_ _ _ _ => rfl
  | .array _ _ _ => rfl

theorem up_isTypes (t : Tree) : t.up.isTypes = t.isTypes := by cases t <;> rfl

theorem up_isParen (t : Tree) : t.up.isParen = t.isParen := by cases t <;> rfl

theorem up_useStack (st : NStack) (l r : Tree) : useStackR st l.up r.up = useStack st l r := by
  cases st <;> simp [useStackR, useStack, up_isParen]

mutual
theorem up_map (df : Option JStr) : (t : Tree) → (st : NStack) → mapNodeR df t.up st = mapNode df t st
  | .types t e, st => by simp only [Tree.up, mapNodeR, mapNode]
  | .func f items, st => by
    simp only [Tree.up, mapNodeR, mapNode, up_mapAll df items]; rfl
  | .in_ f ng items, st => by
    simp only [Tree.up, mapNodeR, mapNode, up_mapAll df items]; rfl
  | .to_ f lo hi, st => by simp only [Tree.up, mapNodeR, mapNode]
  | .cmp op l r, st => by
    simp only [Tree.up, mapNodeR, mapNode, up_useStack, up_isTypes, up_startType, up_map df l, up_map df r]
  | .arith op l r, st => by
    simp only [Tree.up, mapNodeR, mapNode, up_isTypes, up_map df l, up_map df r]
    rfl
  | .paren _, _ => rfl
  | .not_ _, _ => rfl
  | .neg _, _ => rfl
  | .bin _ _ _, _ => rfl
  | .array _ _ _, _ => rfl
theorem up_mapAll (df : Option JStr) : (ts : List Tree) → (st : NStack) → mapNodesR df (Tree.upAll ts) st = mapNodes df ts st
  | [], _ => rfl
  | t :: ts, st => by
    simp only [Tree.upAll, mapNodesR, mapNodes, up_map df t, up_mapAll df ts]
end

theorem up_exitMapped (df : Option JStr) (t : Tree) (s : LState) : exitMappedR df t.up s = exitMapped df t s := by
  simp only [exitMappedR, exitMapped, up_map]

theorem up_exitNeg (df : Option JStr) (t : Tree) (s : LState) : exitNegR df t.up s = exitNeg df t s := by
  unfold exitNegR exitNeg
  cases t <;> rfl

mutual
theorem up_walk (df : Option JStr) : (t : Tree) → (s : LState) → walkR df t.up s = walk df t s
  | .paren t, s => by simp only [Tree.up, walkR, walk, up_walk df t]
  | .not_ t, s => by simp only [Tree.up, walkR, walk, up_walk df t]
  | .cmp op l r, s => by
    have h := up_exitMapped df (.cmp op l r)
    simp only [Tree.up] at h
    simp only [Tree.up, walkR, walk, up_walk df l, up_walk df r, h]
  | .neg t, s => by simp only [Tree.up, walkR, walk, up_walk df t, up_exitNeg]
  | .arith op l r, s => by
    have h := up_exitMapped df (.arith op l r)
    simp only [Tree.up] at h
    simp only [Tree.up, walkR, walk, up_walk df l, up_walk df r, h]
  | .func f items, s => by
    have h := up_exitMapped df (.func f items)
    simp only [Tree.up] at h
    simp only [Tree.up, walkR, walk, up_walkAll df items, h]
  | .bin c l r, s => by simp only [Tree.up, walkR, walk, up_walk df l, up_walk df r]
  | .types t e, s => rfl
  | .to_ f lo hi, s => by
    have h := up_exitMapped df (.to_ f lo hi)
    simp only [Tree.up] at h
    simp only [Tree.up, walkR, walk, h]
  | .in_ f ng items, s => by
    have h := up_exitMapped df (.in_ f ng items)
    simp only [Tree.up] at h
    simp only [Tree.up, walkR, walk, up_walkAll df items, h]
  | .array f op items, s => by
    simp only [Tree.up, walkR, walk, up_walkAll df items, exitArrayR, exitArray, up_mapAll]
    rfl
theorem up_walkAll (df : Option JStr) : (ts : List Tree) → (s : LState) → walkAllR df (Tree.upAll ts) s = walkAll df ts s
  | [], _ => rfl
  | t :: ts, s => by simp only [Tree.upAll, walkAllR, walkAll, up_walk df t, up_walkAll df ts]
end

theorem up_listen (df : Option JStr) (t : Tree) : listenR df t.up = listen df t := by
  simp only [listenR, listen, up_walk]

/-! ## Whole texts -/

theorem pExpr_before {f p : Nat} {ts : List Token} {x : Tree × List Token} (h : pExpr f p ts = some x) :
    pExpr (4 * ts.length + 3) p ts = some x := by
  rcases Nat.le_total f (4 * ts.length + 3) with h1 | h1
  · exact pExpr_mono h1 h
  · rw [← h]; exact pExpr_stable (by omega) h1

theorem rExpr_of {f : Nat} {ts : List Token} {x : Tree × List Token} (h : pExpr f 0 ts = some x) (hx : Okay [.eof] x) :
    rExpr (parseFuel ts) 0 [.eof] (.init ts) = some (x.1.up, .init x.2) :=
  (parse_agree (4 * ts.length + 3)).1 0 [.eof] 0 ts x (pExpr_before h) hx

theorem rParse_of {ts : List Token} {t : Tree} (h : parseTokens ts = some t) : rParse ts = some (t.up, 0) := by
  obtain ⟨f, hf⟩ := parseTokens_iff.1 h
  rw [rParse, rExpr_of hf (.inl rfl)]
  rfl

/-- A complete piece followed by something that cannot continue it. -/
theorem rParse_before {f : Nat} {ts r : List Token} {t : Tree} (h : pExpr f 0 ts = some (t, r)) (hc : t.calm = true) :
    ∃ n, rParse ts = some (t.up, n) := by
  rw [rParse, rExpr_of h (.inr hc)]
  simp only
  cases matchTok (· == .eof) (fun _ => false) (.init r) with
  | none => exact ⟨_, rfl⟩
  | some y => exact ⟨_, rfl⟩

theorem rParse_silent {ts : List Token} {t : RTree} (hne : ∀ u ∈ ts, u.kind ≠ .eof) (h : rParse ts = some (t, 0)) :
    ∃ t', parseTokens ts = some t' := by
  unfold rParse at h
  cases e : rExpr (parseFuel ts) 0 [.eof] (.init ts) with
  | none => rw [e] at h; cases h
  | some y =>
    rw [e] at h
    simp only at h
    have hl := (recovery_le _).1 _ _ _ _ e
    cases hm : matchTok (· == .eof) (fun _ => false) y.2 with
    | none =>
      rw [hm] at h
      simp only [Option.some.injEq, Prod.mk.injEq] at h
      have h1 := (failAt_le [] 23 y.2).2.1
      rw [h.2] at h1
      exact absurd h.2 (failAt_clean ((clean_init ts).next hl (Nat.le_zero.mp h1)) _ _)
    | some z =>
      rw [hm] at h
      simp only [Option.some.injEq, Prod.mk.injEq] at h
      have h1 := (matchTok_le hm).2.1
      rw [h.2] at h1
      have he := Nat.le_zero.mp h1
      obtain ⟨hw, -⟩ := match_clean ((clean_init ts).next hl he) hm h.2
      obtain ⟨x, h2, h3⟩ := (parse_clean _).1 0 [.eof] ts y e he hw
      rw [h3] at hw
      obtain ⟨x1, x2⟩ := x
      obtain ⟨c, hc, -⟩ := (parse_takes _).1 _ _ _ h2
      simp only at hc hw
      cases x2 with
      | nil => exact ⟨x1, parseTokens_of h2⟩
      | cons u r =>
        have : u.kind = .eof := eq_of_beq hw
        exact absurd this (hne u (by rw [hc]; simp))

end BoolParser
