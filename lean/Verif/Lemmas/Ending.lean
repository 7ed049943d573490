import Verif.Lemmas.RecoveryListen
/-!
# How the text of a tree ends
-/

namespace BoolParser

/-- Nothing, or something ending with an operator. -/
def Opened (pre : List Token) : Prop := pre = [] ∨ OpenEnd pre

theorem Opened.cons {d : Token} {pre : List Token} (hd : Dangling d.kind) (h : Opened pre) : Opened (d :: pre) := by
  rcases h with rfl | h
  · exact .inr ⟨[], d, rfl, hd⟩
  · exact .inr (h.cons d)

theorem Opened.append {c pre : List Token} {d : Token} (hd : Dangling d.kind) (h : Opened pre) : Opened (c ++ d :: pre) := by
  rcases h.cons hd with h | h
  · cases h
  · exact .inr (h.append c)

/-- `NOT`s and minus signs, then a name. -/
def NameEnd (ts : List Token) : Prop :=
  ∃ mids u, ts = mids ++ [u] ∧ (∀ v ∈ mids, v.kind = .kNot ∨ v.kind = .arith .sub) ∧ u.kind = .field

/-- A sign, then `NOT`s and minus signs, then a name, at the end. -/
def SignEnd (ts : List Token) : Prop :=
  ∃ pre m r, ts = pre ++ m :: r ∧ Opened pre ∧ m.kind = .arith .sub ∧ NameEnd r

theorem binTok_dangling {k : TK} {b : BinTok} (h : binTok k = some b) : Dangling k := by
  cases k with
  | cmp op => cases op <;> simp [Dangling, betweenKinds]
  | arith op => cases op <;> simp [Dangling, betweenKinds]
  | kAnd => simp [Dangling, betweenKinds]
  | kOr => simp [Dangling, betweenKinds]
  | _ => cases h

theorem SignEnd.cons {d : Token} {ts : List Token} (hd : Dangling d.kind) (h : SignEnd ts) : SignEnd (d :: ts) := by
  obtain ⟨pre, m, r, rfl, h1, h2⟩ := h
  exact ⟨d :: pre, m, r, rfl, h1.cons hd, h2⟩

theorem SignEnd.append {c ts : List Token} {d : Token} (hd : Dangling d.kind) (h : SignEnd ts) : SignEnd (c ++ d :: ts) := by
  obtain ⟨pre, m, r, rfl, h1, h2⟩ := h
  exact ⟨c ++ d :: pre, m, r, by simp, h1.append hd, h2⟩

/-- Where the operator loop stops at the end of the text. -/
theorem loop_last {f p : Nat} {l x : Tree} {ts : List Token} (h : pLoop f p l ts = some (x, [])) :
    (ts = [] ∧ x = l) ∨
    ∃ c d ts' g p' y l' b, ts = c ++ d :: ts' ∧ binTok d.kind = some b ∧ g < f ∧ pExpr g p' ts' = some (y, []) ∧ x = b.mk l' y := by
  induction f generalizing l ts with
  | zero => cases h
  | succ f ih =>
    cases ts with
    | nil => rw [pLoop] at h; cases h; exact .inl ⟨rfl, rfl⟩
    | cons t ts =>
      rw [pLoop] at h
      cases hb : binTok t.kind with
      | none => rw [hb] at h; cases h
      | some b =>
        rw [hb] at h
        simp only at h
        split at h
        · cases e : pExpr f (b.prec + 1) ts with
          | none => rw [e] at h; cases h
          | some y =>
            obtain ⟨y1, y2⟩ := y
            rw [e] at h
            simp only at h
            rcases ih h with ⟨rfl, rfl⟩ | ⟨c, d, ts', g, p', y, l', b', h1, h2, h3, h4, h5⟩
            · exact .inr ⟨[], t, ts, f, _, y1, l, b, rfl, hb, Nat.lt_succ_self f, e, rfl⟩
            · obtain ⟨c', hc', -⟩ := (parse_takes _).1 _ _ _ e
              simp only at hc'
              exact .inr ⟨t :: c' ++ c, d, ts', g, p', y, l', b', by rw [hc', h1]; simp, h2, Nat.lt_succ_of_lt h3, h4, h5⟩
        · cases h

theorem tail_name {f : Nat} {t u : Token} {ts r : List Token} {e : Bool} (h : fieldTail f t ts = some (.types u e, r)) :
    u = t ∧ e = false ∧ r = ts := by
  have key : ∀ {ts}, pAfterField f t ts = some (.types u e, r) → u = t ∧ e = false ∧ r = ts := by
    intro ts h
    cases f with
    | zero => cases h
    | succ f =>
      cases ts with
      | nil => cases h; exact ⟨rfl, rfl, rfl⟩
      | cons v vs =>
        rw [pAfterField_cons] at h
        split at h
        · cases e : pWordlist f vs <;> rw [e] at h <;> cases h
        · cases vs with
          | nil => cases h
          | cons w ws =>
            simp only at h
            split at h
            · cases e : pWordlist f ws <;> rw [e] at h <;> cases h
            · cases h
        · cases e : pWordlist f vs <;> rw [e] at h <;> cases h
        · cases e : pWordlist f vs <;> rw [e] at h <;> cases h
        · cases h; exact ⟨rfl, rfl, rfl⟩
  match ts with
  | [] => cases h; exact ⟨rfl, rfl, rfl⟩
  | [lo] =>
    simp only [fieldTail] at h
    split at h
    · cases h
    · exact key h
  | [lo, to_] =>
    simp only [fieldTail] at h
    split at h
    · cases h
    · exact key h
  | lo :: to_ :: hi :: ts' =>
    simp only [fieldTail] at h
    split at h
    · split at h <;> cases h
    · exact key h

/-- The first part of an expression: the tokens of a sign, a `NOT`, a name or nothing at the end of the text. -/
theorem primary_last {f : Nat} {ts r : List Token} {x : Tree} (h : pPrimary f ts = some (x, r)) :
    (∃ t ts' g e, ts = t :: ts' ∧ t.kind = .kNot ∧ g < f ∧ pExpr g 15 ts' = some (e, r) ∧ x = .not_ e) ∨
    (∃ t ts' g e, ts = t :: ts' ∧ t.kind = .arith .sub ∧ g < f ∧ pExpr g 13 ts' = some (e, r) ∧ x = .neg e) ∨
    (∃ t, ts = t :: r ∧ t.kind = .field ∧ x = .types t false) ∨
    (ts = [] ∧ x = .types eofTok true) ∨
    (x.endsName = false ∧ x.bare = false ∧ x.calm = true) ∨ r ≠ [] := by
  cases f with
  | zero => cases h
  | succ f =>
    cases ts with
    | nil => cases h; exact .inr (.inr (.inr (.inl ⟨rfl, rfl⟩)))
    | cons t ts =>
      by_cases hf : t.kind = .field
      · rw [pPrimary_field _ _ _ hf] at h
        by_cases hx : ∃ u e, x = .types u e
        · obtain ⟨u, e, rfl⟩ := hx
          obtain ⟨rfl, rfl, rfl⟩ := tail_name h
          exact .inr (.inr (.inl ⟨_, rfl, hf, rfl⟩))
        · refine .inr (.inr (.inr (.inr (.inl ?_))))
          have key : ∀ {ts}, pAfterField f t ts = some (x, r) → x.endsName = false ∧ x.bare = false ∧ x.calm = true := by
            intro ts h
            cases f with
            | zero => cases h
            | succ f =>
              cases ts with
              | nil => cases h; exact absurd ⟨_, _, rfl⟩ hx
              | cons v vs =>
                rw [pAfterField_cons] at h
                split at h
                · cases e : pWordlist f vs <;> rw [e] at h <;> cases h; exact ⟨rfl, rfl, rfl⟩
                · cases vs with
                  | nil => cases h
                  | cons w ws =>
                    simp only at h
                    split at h
                    · cases e : pWordlist f ws <;> rw [e] at h <;> cases h; exact ⟨rfl, rfl, rfl⟩
                    · cases h
                · cases e : pWordlist f vs <;> rw [e] at h <;> cases h; exact ⟨rfl, rfl, rfl⟩
                · cases e : pWordlist f vs <;> rw [e] at h <;> cases h; exact ⟨rfl, rfl, rfl⟩
                · cases h; exact absurd ⟨_, _, rfl⟩ hx
          match ts with
          | [] => cases h; exact absurd ⟨_, _, rfl⟩ hx
          | [lo] =>
            simp only [fieldTail] at h
            split at h
            · cases h
            · exact key h
          | [lo, to_] =>
            simp only [fieldTail] at h
            split at h
            · cases h
            · exact key h
          | lo :: to_ :: hi :: ts' =>
            simp only [fieldTail] at h
            split at h
            · split at h <;> cases h; exact ⟨rfl, rfl, rfl⟩
            · exact key h
      · rw [pPrimary_cons] at h
        cases hk : t.kind with
        | lparen =>
          rw [hk] at h
          simp only at h
          cases e : pExpr f 0 ts with
          | none => rw [e] at h; cases h
          | some y =>
            obtain ⟨y1, y2⟩ := y
            rw [e] at h
            cases y2 with
            | nil => cases h
            | cons v vs =>
              simp only at h
              split at h <;> cases h
              exact .inr (.inr (.inr (.inr (.inl ⟨rfl, rfl, rfl⟩))))
        | kNot =>
          rw [hk] at h
          simp only at h
          cases e : pExpr f 15 ts with
          | none => rw [e] at h; cases h
          | some y => rw [e] at h; cases h; exact .inl ⟨t, ts, f, y.1, rfl, hk, Nat.lt_succ_self f, e, rfl⟩
        | arith op =>
          rw [hk] at h
          cases op with
          | sub =>
            simp only at h
            cases e : pExpr f 13 ts with
            | none => rw [e] at h; cases h
            | some y => rw [e] at h; cases h; exact .inr (.inl ⟨t, ts, f, y.1, rfl, hk, Nat.lt_succ_self f, e, rfl⟩)
          | _ => cases h; exact .inr (.inr (.inr (.inr (.inr nofun))))
        | fn g =>
          rw [hk] at h
          simp only at h
          cases e : pWordlist f ts with
          | none => rw [e] at h; cases h
          | some y => rw [e] at h; cases h; exact .inr (.inr (.inr (.inr (.inl ⟨rfl, rfl, rfl⟩))))
        | field => exact absurd hk hf
        | _ =>
          rw [hk] at h
          first
            | (cases h; done)
            | (cases h; exact .inr (.inr (.inr (.inr (.inr (List.cons_ne_nil _ _))))))
            | (cases h
               exact .inr (.inr (.inr (.inr (.inl ⟨by simp [Tree.endsName, hk], by simp [Tree.bare, hk], rfl⟩)))))

/-- A tree that ends with a name comes from a text that ends with one. -/
theorem expr_endsName (f : Nat) : ∀ p ts x, pExpr f p ts = some (x, []) → x.endsName = true →
    ∃ pre u, ts = pre ++ [u] ∧ u.kind = .field := by
  induction f using Nat.strong_induction_on with
  | _ f ih =>
  intro p ts x h hx
  cases f with
  | zero => cases h
  | succ f =>
  rw [pExpr] at h
  cases e : pPrimary f ts with
  | none => rw [e] at h; cases h
  | some y =>
    obtain ⟨y1, y2⟩ := y
    rw [e] at h
    simp only at h
    rcases loop_last h with ⟨rfl, rfl⟩ | ⟨c, d, ts', g, p', y, l', b, h1, h2, h3, h4, rfl⟩
    · rcases primary_last e with ⟨t, ts', g, e, rfl, -, hg, h1, rfl⟩ | ⟨t, ts', g, e, rfl, -, hg, h1, rfl⟩ | ⟨t, rfl, hk, rfl⟩ |
        ⟨rfl, rfl⟩ | ⟨h1, -⟩ | h1
      · obtain ⟨pre, u, rfl, hu⟩ := ih g (by omega) _ _ _ h1 hx
        exact ⟨t :: pre, u, rfl, hu⟩
      · obtain ⟨pre, u, rfl, hu⟩ := ih g (by omega) _ _ _ h1 hx
        exact ⟨t :: pre, u, rfl, hu⟩
      · exact ⟨[], t, rfl, hk⟩
      · cases hx
      · rw [h1] at hx; cases hx
      · exact absurd rfl h1
    · rw [endsName_mk] at hx
      obtain ⟨pre, u, rfl, hu⟩ := ih g (by omega) _ _ _ h4 hx
      obtain ⟨c', hc', -⟩ := (parse_takes _).2.1 _ _ e
      simp only at hc'
      exact ⟨c' ++ c ++ d :: pre, u, by rw [hc', h1]; simp, hu⟩

theorem expr_bare (f : Nat) : ∀ p ts x, pExpr f p ts = some (x, []) → x.closed = true → x.bare = true → NameEnd ts := by
  induction f using Nat.strong_induction_on with
  | _ f ih =>
  intro p ts x h hc hx
  cases f with
  | zero => cases h
  | succ f =>
  rw [pExpr] at h
  cases e : pPrimary f ts with
  | none => rw [e] at h; cases h
  | some y =>
    obtain ⟨y1, y2⟩ := y
    rw [e] at h
    simp only at h
    rcases loop_last h with ⟨rfl, rfl⟩ | ⟨c, d, ts', g, p', y, l', b, h1, h2, h3, h4, rfl⟩
    · rcases primary_last e with ⟨t, ts', g, e', rfl, hk, hg, h1, rfl⟩ | ⟨t, ts', g, e', rfl, hk, hg, h1, rfl⟩ | ⟨t, rfl, hk, rfl⟩ |
        ⟨rfl, rfl⟩ | ⟨-, h1, -⟩ | h1
      · obtain ⟨mids, u, rfl, hm, hu⟩ := ih g (by omega) _ _ _ h1 hc hx
        refine ⟨t :: mids, u, rfl, ?_, hu⟩
        intro v hv
        rcases List.mem_cons.1 hv with rfl | hv
        · exact .inl hk
        · exact hm v hv
      · obtain ⟨mids, u, rfl, hm, hu⟩ := ih g (by omega) _ _ _ h1 hc hx
        refine ⟨t :: mids, u, rfl, ?_, hu⟩
        intro v hv
        rcases List.mem_cons.1 hv with rfl | hv
        · exact .inr hk
        · exact hm v hv
      · exact ⟨[], t, rfl, nofun, hk⟩
      · cases hc
      · rw [h1] at hx; cases hx
      · exact absurd rfl h1
    · rw [bare_mk] at hx; cases hx

/-- A sign before a name at the end of the tree is one at the end of the text. -/
theorem expr_calm (f : Nat) : ∀ p ts x, pExpr f p ts = some (x, []) → x.closed = true → x.calm = false → SignEnd ts := by
  induction f using Nat.strong_induction_on with
  | _ f ih =>
  intro p ts x h hc hx
  cases f with
  | zero => cases h
  | succ f =>
  rw [pExpr] at h
  cases e : pPrimary f ts with
  | none => rw [e] at h; cases h
  | some y =>
    obtain ⟨y1, y2⟩ := y
    rw [e] at h
    simp only at h
    rcases loop_last h with ⟨rfl, rfl⟩ | ⟨c, d, ts', g, p', y, l', b, h1, h2, h3, h4, rfl⟩
    · rcases primary_last e with ⟨t, ts', g, e', rfl, hk, hg, h1, rfl⟩ | ⟨t, ts', g, e', rfl, hk, hg, h1, rfl⟩ | ⟨t, rfl, hk, rfl⟩ |
        ⟨rfl, rfl⟩ | ⟨-, -, h1⟩ | h1
      · exact (ih g (by omega) _ _ _ h1 hc hx).cons (.inr hk)
      · by_cases hb : e'.bare = true
        · exact ⟨[], t, ts', rfl, .inl rfl, hk, expr_bare g _ _ _ h1 hc hb⟩
        · have : e'.calm = false := by
            simpa [Tree.calm, Bool.eq_false_iff.mpr hb] using hx
          exact (ih g (by omega) _ _ _ h1 hc this).cons (.inl (by rw [hk]; simp [betweenKinds]))
      · cases hx
      · cases hx
      · rw [h1] at hx; cases hx
      · exact absurd rfl h1
    · rw [calm_mk] at hx
      rw [closed_mk, Bool.and_eq_true] at hc
      have := ih g (by omega) _ _ _ h4 hc.2 hx
      obtain ⟨c', hc', -⟩ := (parse_takes _).2.1 _ _ e
      simp only at hc'
      have h5 := this.append (c := c' ++ c) (binTok_dangling h2)
      rw [hc', h1]
      simpa using h5

end BoolParser
