import Verif.Lemmas.ParserTree
/-!
# The methods of the generated parser have one outcome
-/

namespace BoolParser

theorem predicts_unique {a : ATN} {d : Nat} {p : Option Nat} {σ w : List Nat} {i j : Nat} (h : Predicts a d p σ w i)
    (h' : Predicts a d p σ w j) : i = j := by
  obtain ⟨⟨s, hs, hv⟩, hl⟩ := h
  obtain ⟨⟨s', hs', hv'⟩, hl'⟩ := h'
  rcases Nat.lt_trichotomy i j with h | h | h
  · exact absurd hv (hl' i h s hs)
  · exact h
  · exact absurd hv' (hl j h s' hs')

theorem gtypes_unique {a : ATN} {σ : List Nat} {ts : List Token} {t t' : Tree} {r r' : List Token}
    (h : GTypes a σ ts t r) (h' : GTypes a σ ts t' r') : t = t' ∧ r = r' := by
  have nine : ∀ {i k}, (i, k) ∈ typesAlts → i ≠ 9 := by
    intro i k h e; subst e; simp [typesAlts] at h
  cases h with
  | tok hi hp =>
    cases h' with
    | tok _ _ => exact ⟨rfl, rfl⟩
    | empty hq => exact absurd (predicts_unique hp hq) (nine hi)
  | empty hp =>
    cases h' with
    | tok hi hq => exact absurd (predicts_unique hq hp) (nine hi)
    | empty _ => exact ⟨rfl, rfl⟩

theorem arith_alts {i q q' : Nat} {o o' : ArithOp} (h : (i, q, o) ∈ arithAlts) (h' : (i, q', o') ∈ arithAlts) :
    q = q' ∧ o = o' := by
  have : ∀ x ∈ arithAlts, ∀ y ∈ arithAlts, x.1 = y.1 → x = y := by decide
  have := this _ h _ h' rfl
  simp only [Prod.mk.injEq] at this
  exact this.2

theorem arith_range {i q : Nat} {o : ArithOp} (h : (i, q, o) ∈ arithAlts) : i ≠ 1 ∧ i ≠ 8 := by
  have : ∀ x ∈ arithAlts, x.1 ≠ 1 ∧ x.1 ≠ 8 := by decide
  exact this _ h

macro "clash" h:ident h':ident : tactic => `(tactic| exact absurd (predicts_unique $h $h') (by decide))

variable {a : ATN}

theorem gexpr_unique {p : Nat} {σ : List Nat} {ts : List Token} {t : Tree} {r : List Token}
    (h : GExpr a p σ ts t r) : ∀ t' r', GExpr a p σ ts t' r' → t = t' ∧ r = r' := by
  refine GExpr.rec (motive_1 := fun p σ ts t r _ => ∀ t' r', GExpr a p σ ts t' r' → t = t' ∧ r = r')
    (motive_2 := fun p σ ts t r _ => ∀ t' r', GPrimary a p σ ts t' r' → t = t' ∧ r = r')
    (motive_3 := fun p σ l ts t r _ => ∀ t' r', GLoop a p σ l ts t' r' → t = t' ∧ r = r')
    (motive_4 := fun σ ts t r _ => ∀ t' r', GWordlist a σ ts t' r' → t = t' ∧ r = r')
    (motive_5 := fun σ ts t r _ => ∀ t' r', GMore a σ ts t' r' → t = t' ∧ r = r')
    ?_ ?_ ?_ ?_ ?_ ?_ ?_ ?_ ?_ ?_ ?_ ?_ ?_ ?_ ?_ ?_ ?_ ?_ ?_ h
  · intros; rename_i hp hl ihp ihl t' r' h'
    cases h' with
    | mk hp' hl' =>
      obtain ⟨rfl, rfl⟩ := ihp _ _ hp'
      exact ihl _ _ hl'
  · intros; rename_i hq hk he hc ihe t' r' h'
    cases h' with
    | paren hq' hk' he' hc' =>
      obtain ⟨rfl, e⟩ := ihe _ _ he'
      cases e; exact ⟨rfl, rfl⟩
    | not_ hq' | neg hq' | func hq' | types hq' | to_ hq' | in_ hq' | notIn hq' | all hq' | any hq' => clash hq hq'
  · intros; rename_i hq hk he ihe t' r' h'
    cases h' with
    | not_ hq' hk' he' =>
      obtain ⟨rfl, rfl⟩ := ihe _ _ he'
      exact ⟨rfl, rfl⟩
    | paren hq' | neg hq' | func hq' | types hq' | to_ hq' | in_ hq' | notIn hq' | all hq' | any hq' => clash hq hq'
  · intros; rename_i hq hk he ihe t' r' h'
    cases h' with
    | neg hq' hk' he' =>
      obtain ⟨rfl, rfl⟩ := ihe _ _ he'
      exact ⟨rfl, rfl⟩
    | paren hq' | not_ hq' | func hq' | types hq' | to_ hq' | in_ hq' | notIn hq' | all hq' | any hq' => clash hq hq'
  · intros; rename_i hq hk he ihe t' r' h'
    cases h' with
    | func hq' hk' he' =>
      obtain ⟨rfl, rfl⟩ := ihe _ _ he'
      rw [hk] at hk'
      cases hk'
      exact ⟨rfl, rfl⟩
    | paren hq' | not_ hq' | neg hq' | types hq' | to_ hq' | in_ hq' | notIn hq' | all hq' | any hq' => clash hq hq'
  · intros; rename_i hq he t' r' h'
    cases h' with
    | types hq' he' => exact gtypes_unique he he'
    | paren hq' | not_ hq' | neg hq' | func hq' | to_ hq' | in_ hq' | notIn hq' | all hq' | any hq' => clash hq hq'
  · intros; rename_i hq _ _ _ _ t' r' h'
    cases h' with
    | to_ _ _ _ _ _ => exact ⟨rfl, rfl⟩
    | paren hq' | not_ hq' | neg hq' | func hq' | types hq' | in_ hq' | notIn hq' | all hq' | any hq' => clash hq hq'
  · intros; rename_i hq _ hk he ihe t' r' h'
    cases h' with
    | in_ _ _ _ he' =>
      obtain ⟨rfl, rfl⟩ := ihe _ _ he'
      exact ⟨rfl, rfl⟩
    | notIn _ _ hk' => rw [hk] at hk'; cases hk'
    | paren hq' | not_ hq' | neg hq' | func hq' | types hq' | to_ hq' | all hq' | any hq' => clash hq hq'
  · intros; rename_i hq _ hk _ he ihe t' r' h'
    cases h' with
    | notIn _ _ _ _ he' =>
      obtain ⟨rfl, rfl⟩ := ihe _ _ he'
      exact ⟨rfl, rfl⟩
    | in_ _ _ hk' => rw [hk] at hk'; cases hk'
    | paren hq' | not_ hq' | neg hq' | func hq' | types hq' | to_ hq' | all hq' | any hq' => clash hq hq'
  · intros; rename_i hq _ hk he ihe t' r' h'
    cases h' with
    | all _ _ _ he' =>
      obtain ⟨rfl, rfl⟩ := ihe _ _ he'
      exact ⟨rfl, rfl⟩
    | any _ _ hk' => rw [hk] at hk'; cases hk'
    | paren hq' | not_ hq' | neg hq' | func hq' | types hq' | to_ hq' | in_ hq' | notIn hq' => clash hq hq'
  · intros; rename_i hq _ hk he ihe t' r' h'
    cases h' with
    | any _ _ _ he' =>
      obtain ⟨rfl, rfl⟩ := ihe _ _ he'
      exact ⟨rfl, rfl⟩
    | all _ _ hk' => rw [hk] at hk'; cases hk'
    | paren hq' | not_ hq' | neg hq' | func hq' | types hq' | to_ hq' | in_ hq' | notIn hq' => clash hq hq'
  · intros; rename_i hq t' r' h'
    cases h' with
    | done _ => exact ⟨rfl, rfl⟩
    | cmp hq' | arith hq' | and hq' | or hq' => clash hq hq'
  · intros; rename_i hq hi hp hk he hl ihe ihl t' r' h'
    cases h' with
    | done hq' => clash hq hq'
    | cmp _ _ _ hk' he' hl' =>
      obtain ⟨rfl, rfl⟩ := ihe _ _ he'
      rw [hk] at hk'
      cases hk'
      exact ihl _ _ hl'
    | arith _ _ _ _ hk' | and _ _ _ hk' | or _ _ _ hk' => rw [hk] at hk'; cases hk'
  · intros; rename_i hq hi hm hp hk he hl ihe ihl t' r' h'
    cases h' with
    | done hq' => clash hq hq'
    | arith _ hi' hm' _ hk' he' hl' =>
      have e := predicts_unique hi hi'
      subst e
      obtain ⟨rfl, rfl⟩ := arith_alts hm hm'
      obtain ⟨rfl, rfl⟩ := ihe _ _ he'
      exact ihl _ _ hl'
    | cmp _ _ _ hk' | and _ _ _ hk' | or _ _ _ hk' => rw [hk] at hk'; cases hk'
  · intros; rename_i hq hi hp hk he hl ihe ihl t' r' h'
    cases h' with
    | done hq' => clash hq hq'
    | and _ _ _ hk' he' hl' =>
      obtain ⟨rfl, rfl⟩ := ihe _ _ he'
      exact ihl _ _ hl'
    | arith _ _ _ _ hk' | cmp _ _ _ hk' | or _ _ _ hk' => rw [hk] at hk'; cases hk'
  · intros; rename_i hq hi hp hk he hl ihe ihl t' r' h'
    cases h' with
    | done hq' => clash hq hq'
    | or _ _ _ hk' he' hl' =>
      obtain ⟨rfl, rfl⟩ := ihe _ _ he'
      exact ihl _ _ hl'
    | arith _ _ _ _ hk' | cmp _ _ _ hk' | and _ _ _ hk' => rw [hk] at hk'; cases hk'
  · intros; rename_i _ _ he hm ihe ihm t' r' h'
    cases h' with
    | mk _ _ he' hm' =>
      obtain ⟨rfl, rfl⟩ := ihe _ _ he'
      obtain ⟨rfl, rfl⟩ := ihm _ _ hm'
      exact ⟨rfl, rfl⟩
  · intros; rename_i hc t' r' h'
    cases h' with
    | done _ => exact ⟨rfl, rfl⟩
    | more hc' => rw [hc] at hc'; cases hc'
  · intros; rename_i hc _ he hm ihe ihm t' r' h'
    cases h' with
    | done hc' => rw [hc] at hc'; cases hc'
    | more _ _ he' hm' =>
      obtain ⟨rfl, rfl⟩ := ihe _ _ he'
      obtain ⟨rfl, rfl⟩ := ihm _ _ hm'
      exact ⟨rfl, rfl⟩

/-! ## The whole parse -/

theorem alternative_eps {d i t : Nat} (h : a.alternative d i = some t) : ATrans.eps t ∈ a.transitions d := by
  cases i with
  | zero => cases h
  | succ j =>
    simp only [ATN.alternative] at h
    split at h
    · rename_i e
      cases h
      exact List.mem_of_getElem? e
    · cases h

theorem predicts_viable {d i : Nat} {p : Option Nat} {σ w : List Nat} (h : Predicts a d p σ w i) :
    ∃ x y, w = x ++ y ∧ Derives a p d x ∧ Returns a σ y := by
  obtain ⟨⟨t, ht, x, y, e, hx, hy⟩, _⟩ := h
  exact ⟨x, y, e, .eps (alternative_eps ht) hx, hy⟩

theorem viable_expression {p : Option Nat} {ts : List Token}
    (h : ∃ x y, tokenTypes ts = x ++ y ∧ Derives parserAtn p 53 x ∧ Returns parserAtn [23] y) :
    Expression (ts.map Token.kind) := by
  obtain ⟨x, y, e, hx, hy⟩ := h
  refine (parse_language _).1 ?_
  have e' : codes (ts.map Token.kind) ++ [0] = x ++ y := by
    rw [← e]; simp [tokenTypes, codes, Function.comp_def]
  rw [e']
  ε 22
  have h2 : Der 2 x := by ε 53; exact derives_none hx
  cases hy with
  | @cons _ _ y1 y2 h23 hn =>
    cases hn
    rw [List.append_nil]
    exact der_call 2 23 0 (by decide +kernel) h2 h23

theorem gparse_expression {ts : List Token} {t : Tree} (h : GParse parserAtn ts t) :
    Expression (ts.map Token.kind) := by
  cases h with
  | mk hp _ => cases hp <;> exact viable_expression (predicts_viable ‹Predicts _ _ _ _ _ _›)

/-- The methods of the generated parser, choosing as the automaton predicts, build the tree of `parseTokens` on the
inputs that have one and nothing on the others. -/
theorem gparse_iff (ts : List Token) (t : Tree) : GParse parserAtn ts t ↔ parseTokens ts = some t := by
  have back : ∀ t, parseTokens ts = some t → GParse parserAtn ts t := by
    intro t h
    obtain ⟨f, hf⟩ := parseTokens_iff.1 h
    refine (parse_follows f).1 0 ts _ [23] hf (stack_cons nofun (by decide)) ?_
    show Returns parserAtn [23] [0]
    refine .cons (x := [0]) (y := []) ?_ .nil
    δ 24 ⟪.atom 0 24⟫
    ε 1; exact der_stop (by decide +kernel)
  refine ⟨fun h => ?_, back t⟩
  obtain ⟨t', ht'⟩ := parse_complete (gparse_expression h)
  rw [ht', (gexpr_unique h _ _ (back t' ht')).1]

end BoolParser
