import Verif.Spec.AnyRename
import Verif.Lemmas.AnySim
import Verif.Props.Texts
/-!
# Renaming fields and respelling keywords in any text (C94)

C62 and C41 are about texts of the grammar. The library evaluates other texts too, after repairing them; which lexemes
it deletes, inserts or skips depends on their kinds only.
-/

namespace BoolParser
open Spec

theorem number_kind {t : Token} (hc : Classified t.text t.kind) (h : IsDigits t.text ∨ IsDecimalText t.text) :
    isNumKind t.kind = true := by
  rcases h with h | h
  · rw [classified_one hc (.integer h)]; rfl
  · rw [classified_one hc (.decimal h)]; rfl

theorem infix_kind {t : Token} (hc : Classified t.text t.kind) : (!isBinKind t.kind) = decide (t.text ∉ infixLexemes) := by
  have h1 : ∀ p ∈ tokenTable, isBinKind p.2 = true → p.1 ∈ infixLexemes := by decide +kernel
  have h2 : ∀ x ∈ infixLexemes, ∃ p ∈ tokenTable, p.1 = x ∧ isBinKind p.2 = true := by decide +kernel
  by_cases hx : t.text ∈ infixLexemes
  · obtain ⟨p, hp, hx', hk⟩ := h2 _ hx
    have : Classified t.text p.2 := .table (by rw [← hx']; exact hp)
    rw [classified_one hc this, hk]
    simp [hx]
  · have : isBinKind t.kind = false := by
      cases e : isBinKind t.kind with
      | false => rfl
      | true =>
        exfalso
        obtain ⟨k, x⟩ := t
        simp only at hc e hx
        cases hc with
        | table h => exact hx (h1 _ h e)
        | _ => cases e
    rw [this]
    simp [hx]

theorem toks_of_texts : {xs ys : List Token} → (∀ t ∈ xs, Classified t.text t.kind) → (∀ t ∈ ys, Classified t.text t.kind) →
    xs.map Token.text = ys.map Token.text → xs = ys
  | [], [], _, _, _ => rfl
  | [], _ :: _, _, _, h => by simp at h
  | _ :: _, [], _, _, h => by simp at h
  | x :: xs, y :: ys, hx, hy, h => by
    simp only [List.map_cons, List.cons.injEq] at h
    have h1 := hx x (by simp)
    have h2 := hy y (by simp)
    rw [← h.1] at h2
    have : x = y := by
      obtain ⟨k, a⟩ := x
      obtain ⟨k', a'⟩ := y
      have e1 := h.1
      have e2 := classified_one h1 h2
      simp only at e1 e2
      rw [e1, e2]
    rw [this, toks_of_texts (fun t ht => hx t (by simp [ht])) (fun t ht => hy t (by simp [ht])) h.2]

theorem map_takeWhile : {xs : List Token} → (∀ t ∈ xs, Classified t.text t.kind) →
    (xs.takeWhile (fun t => !isBinKind t.kind)).map Token.text =
      (xs.map Token.text).takeWhile (fun t => decide (t ∉ infixLexemes))
  | [], _ => rfl
  | x :: xs, hx => by
    have h := infix_kind (hx x (by simp))
    rw [List.map_cons]
    cases e : !isBinKind x.kind with
    | true =>
      rw [List.takeWhile_cons_of_pos (by exact e), List.takeWhile_cons_of_pos (by rw [← h]; exact e), List.map_cons,
        map_takeWhile fun t ht => hx t (by simp [ht])]
    | false =>
      rw [List.takeWhile_cons_of_neg (by rw [e]; decide), List.takeWhile_cons_of_neg (by rw [← h, e]; decide), List.map_nil]

theorem kept_toks : {xs ys : List Token} → (∀ t ∈ xs, Classified t.text t.kind) → (∀ t ∈ ys, Classified t.text t.kind) →
    BoundsKept (xs.map Token.text) (ys.map Token.text) → KeptToks xs ys
  | [], _, _, _, _ => by simp [KeptToks]
  | _ :: _, [], _, _, _ => by simp [KeptToks]
  | x :: xs, y :: ys, hx, hy, h => by
    simp only [List.map_cons, BoundsKept] at h
    have hx' : ∀ t ∈ xs, Classified t.text t.kind := fun t ht => hx t (by simp [ht])
    have hy' : ∀ t ∈ ys, Classified t.text t.kind := fun t ht => hy t (by simp [ht])
    refine ⟨fun hk => ?_, kept_toks hx' hy' h.2⟩
    have hc := hx x (by simp)
    have ht : x.text = j!"TO" ∨ x.text = j!"to" := by
      rw [hk] at hc
      have : ∀ p ∈ tokenTable, p.2 = .kTo → p.1 = j!"TO" ∨ p.1 = j!"to" := by decide +kernel
      cases hc with
      | table h => exact this _ h rfl
    rcases h.1 ht with ⟨u, r, e, hu⟩ | ⟨h1, h2⟩
    · left
      cases xs with
      | nil => simp at e
      | cons z zs =>
        simp only [List.map_cons, List.cons.injEq] at e
        exact ⟨z, zs, rfl, number_kind (hx' z (by simp)) (by rw [e.1]; exact hu)⟩
    · right
      constructor
      · refine toks_of_texts (fun t ht => hx' t (List.mem_of_mem_take ht)) (fun t ht => hy' t (List.mem_of_mem_take ht)) ?_
        rw [List.map_take, List.map_take]; exact h1
      · refine toks_of_texts (fun t ht => hx' t (List.takeWhile_prefix _ |>.subset ht))
          (fun t ht => hy' t (List.takeWhile_prefix _ |>.subset ht)) ?_
        rw [map_takeWhile hx', map_takeWhile hy']; exact h2

theorem lex_each (s : JStr) : ∀ t ∈ lex s, Classified t.text t.kind :=
  fun t ht => valid_classified (k := t.kind) (t := t.text) (lex_valid _ s (Nat.le_refl _) t ht)

theorem cut_kept {s s' : JStr} {ts ts' : List JStr} (h : Cut s ts) (h' : Cut s' ts') (hb : BoundsKept ts ts') :
    KeptToks (lex s) (lex s') := by
  rw [← cut_unique h, ← cut_unique h'] at hb
  exact kept_toks (lex_each s) (lex_each s') hb

/-- **C94**, renaming: C62 for any text. -/
theorem C94_rename {s s' : JStr} {ts ts' : List JStr} (h : Cut s ts) (h' : Cut s' ts') (env : Env) {d d' : Data}
    {df df' : Option JStr} (hr : List.Forall₂ (Renames d d') ts ts') (hb : BoundsKept ts ts')
    (hl : ∀ f, LiteralName ts f → SameAt f d d')
    (hdf : df = none ∧ df' = none ∨ ∃ f f', df = some f ∧ df' = some f' ∧ Classified f .field ∧ Classified f' .field ∧
      Renames d d' f f') :
    evaluateAny env s d df = evaluateAny env s' d' df' ∧ evaluateArithAny env s d = evaluateArithAny env s' d' := by
  have hk := cut_kept h h' hb
  have key : ∀ {b : Bool}, List.Forall₂ (TokAny env env d d' b) (lex s) (lex s') := by
    intro b
    rw [← cut_unique h, ← cut_unique h'] at hr
    refine forall2_imp (forall2_tokens hr (lex_valid _ s (Nat.le_refl _)) (lex_valid _ s' (Nat.le_refl _))) ?_
    rintro t t' ⟨h1, ⟨h2, h3⟩, h4⟩
    refine ⟨⟨renames_tok hl (cut_texts h h2).1 h3 h4 h1, tokEnv_refl env t⟩, fun _ _ hk => ?_⟩
    rcases h1 with ⟨h1, -⟩ | ⟨h1, -⟩
    · exact h1.symm
    · exact absurd (classified_one h3 h1) hk
  exact ⟨evaluateAny_tokens (dflt_renames hl hdf) (eof_same hl) (forall2_imp key fun _ _ h => h.1) hk,
    evaluateArithAny_tokens (eof_same hl) key hk⟩

/-- A closing parenthesis too many. -/
example (env : Env) (n : Int) : evaluateAny env j!"a = 5 )" [(j!"a", .int n)] none =
    evaluateAny env j!"person.age = 5 )" [(j!"person", .map [(j!"age", .int n)])] none := by
  have fld : ∀ f : JStr, bestMatch f lexRules = some (.tok .field, f.length) → Classified f .field :=
    fun f h => valid_classified (valid_of_best h)
  have keep : ∀ {d d' : Data} {t : JStr}, (∃ k, (t, k) ∈ tokenTable ∧ k ≠ .field) → Renames d d' t t := by
    rintro d d' t ⟨k, hk, hf⟩
    exact .inl ⟨rfl, fun h => absurd (classified_one h (.table hk)) (Ne.symm hf)⟩
  refine (C94_rename (ts := [j!"a", j!"=", j!"5", j!")"]) (ts' := [j!"person.age", j!"=", j!"5", j!")"])
    (cut_of (by krfl)) (cut_of (by krfl)) env ?_ (by simp [BoundsKept]) ?_ (.inl ⟨rfl, rfl⟩)).1
  · refine .cons (.inr ⟨fld _ (by krfl), fld _ (by krfl), by decide, [j!"a"], [j!"person", j!"age"],
      ⟨⟨by simp, by decide, by decide⟩, 0, rfl⟩, ⟨⟨by simp, by decide, by decide⟩, 0, rfl⟩, ?_⟩)
      (.cons (keep ⟨.cmp .eq, by decide +kernel, by decide⟩) (.cons (.inl ⟨rfl, fun h => ?_⟩)
      (.cons (keep ⟨.rparen, by decide +kernel, by decide⟩) .nil)))
    · intro v; rw [← walkKeys_some, ← walkKeys_some]; exact Iff.rfl
    · exact absurd (classified_one h (.integer ⟨by simp, by decide⟩)) (by decide)
  · intro f hf
    have key : ∀ {k : JStr}, (k = j!"a" ∨ k = j!"person") → f.takeWhile (· ≠ '.') ≠ k := by
      intro k hk
      rcases hf with ⟨h, hn⟩ | ⟨q, hq, h⟩ | h | rfl
      · simp only [List.mem_cons, List.not_mem_nil, or_false] at h
        rcases h with rfl | rfl | rfl | rfl
        · exact absurd (fld _ (by krfl)) hn
        all_goals rcases hk with rfl | rfl <;> decide
      · simp only [List.mem_cons, List.not_mem_nil, or_false, List.cons.injEq] at h
        rcases hq with rfl | rfl <;> simp at h
      · obtain ⟨c, r, rfl, h'⟩ := numberName_like h
        clear h
        rename' h' => h
        intro he
        have hc : c ≠ '.' := by rintro rfl; exact absurd h (by decide)
        rw [List.takeWhile_cons_of_pos (by simpa using hc)] at he
        rcases hk with rfl | rfl <;> (injection he with he _; subst he; exact absurd h (by decide))
      · rcases hk with rfl | rfl <;> decide
    have up : ∀ (k : JStr) (v : Value), (k = j!"a" ∨ k = j!"person") → SameAt f [] [(k, v)] := by
      intro k v hk
      refine put_sameAt (by rcases hk with rfl | rfl <;> decide) (fun ks hn hh => ?_)
      cases ks with
      | nil => cases hh
      | cons k' ks =>
        simp only [List.head?_cons, Option.some.injEq] at hh
        subst hh
        exact key hk (names_head hn (by rcases hk with rfl | rfl <;> decide))
    have h1 := up j!"a" (.int n) (.inl rfl)
    have h2 := up j!"person" (.map [(j!"age", .int n)]) (.inr rfl)
    exact ⟨fun ks v hn => (h1.1 ks v hn).symm.trans (h2.1 ks v hn), fun hf v => (h1.2 hf v).symm.trans (h2.2 hf v)⟩

example (env : Env) : evaluateAny env j!"a = 5 )" [(j!"a", .int 5)] none = .ok true := by
  rw [evaluateAny, show parseAny j!"a = 5 )" none = .ok (.cmp (.field (some ['a'])) (.unary .integer (.int 5)) .eq .integer) by krfl]
  rfl

/-- **C94**, spelling: C41 for any text. -/
theorem C94_spelling {s s' : JStr} {ts ts' : List JStr} (h : Cut s ts) (h' : Cut s' ts')
    (hk : List.Forall₂ SameKeyword ts ts') (hb : BoundsKept ts ts') (env : Env) {d : Data}
    (hd : ∀ t k, (t, k) ∈ tokenTable → ∀ v, ¬ HasEntry d t v) (df : Option JStr) :
    evaluateAny env s d df = evaluateAny env s' d df := by
  refine evaluateAny_tokens ?_ (.same _ rfl (fun _ _ _ _ _ _ => rfl)) ?_ (cut_kept h h' hb)
  · cases df with
    | none => exact .none
    | some f => exact .some ⟨rfl, rfl⟩
  · rw [← cut_unique h, ← cut_unique h'] at hk
    refine forall2_imp (forall2_tokens hk (lex_valid _ s (Nat.le_refl _)) (lex_valid _ s' (Nat.le_refl _))) ?_
    rintro t t' ⟨h1, ⟨h2, h3⟩, h4⟩
    exact ⟨keyword_tok hd h3 h4 h1 (by intro h; cases h), tokEnv_refl env t⟩

/-- A closing parenthesis missing and a number too many: the text is repaired, and the spelling of AND does not matter. -/
example (env : Env) : evaluateAny env j!"a = 5 && (b = 7 8" [(j!"a", .int 5), (j!"b", .int 7)] none = .ok true := by
  rw [← C94_spelling (s := j!"a = 5 AND (b = 7 8")
    (ts := [j!"a", j!"=", j!"5", j!"AND", j!"(", j!"b", j!"=", j!"7", j!"8"])
    (ts' := [j!"a", j!"=", j!"5", j!"&&", j!"(", j!"b", j!"=", j!"7", j!"8"])
    (cut_of (by krfl)) (cut_of (by krfl)) ?_ (by simp [BoundsKept]) env ?_ none]
  · rw [evaluateAny, show parseAny j!"a = 5 AND (b = 7 8" none = .ok
      (.and_ (.cmp (.field (some ['a'])) (.unary .integer (.int 5)) .eq .integer)
        (.cmp (.field (some ['b'])) (.unary .integer (.int 7)) .eq .integer)) by krfl]
    rfl
  · exact .cons (.inl rfl) (.cons (.inl rfl) (.cons (.inl rfl)
      (.cons (.inr ⟨.kAnd, by decide +kernel, by decide +kernel⟩) (.cons (.inl rfl) (.cons (.inl rfl)
      (.cons (.inl rfl) (.cons (.inl rfl) (.cons (.inl rfl) .nil))))))))
  · intro t k h v hv
    have h1 := hasEntry_mem hv
    simp only [List.mem_cons, List.not_mem_nil, or_false, Prod.mk.injEq] at h1
    have : ∀ p ∈ tokenTable, p.1 ≠ ['a'] ∧ p.1 ≠ ['b'] := by decide +kernel
    have := this _ h
    rcases h1 with h1 | h1
    · exact this.1 h1.1
    · exact this.2 h1.1

/-- **C94**, spelling, arithmetic evaluator. It returns the text of a lone lexeme, so only NOT and function names may
be spelled differently. -/
theorem C94_spelling_arith {s s' : JStr} {ts ts' : List JStr} (h : Cut s ts) (h' : Cut s' ts')
    (hk : List.Forall₂ (fun t t' => SameKeyword t t' ∧ (¬ PrefixWord t → t' = t)) ts ts') (hb : BoundsKept ts ts')
    (env : Env) {d : Data} (hd : ∀ t k, (t, k) ∈ tokenTable → ∀ v, ¬ HasEntry d t v) :
    evaluateArithAny env s d = evaluateArithAny env s' d := by
  refine evaluateArithAny_tokens (.same _ rfl (fun _ _ _ _ _ _ => rfl)) ?_ (cut_kept h h' hb)
  rw [← cut_unique h, ← cut_unique h'] at hk
  refine forall2_imp (forall2_tokens hk (lex_valid _ s (Nat.le_refl _)) (lex_valid _ s' (Nat.le_refl _))) ?_
  rintro t t' ⟨⟨h1, h0⟩, ⟨h2, h3⟩, h4⟩
  have logic : t.text ∈ logicWords → t'.text = t.text := by
    intro hw
    refine h0 ?_
    have : ∀ x ∈ logicWords, ∀ p ∈ tokenTable, p.1 = x → p.2 ≠ .kNot ∧ ∀ f, p.2 ≠ .fn f := by
      have : ∀ x ∈ logicWords, ∀ p ∈ tokenTable, p.1 = x → startsTypes p.2 = true := by decide +kernel
      intro x hx p hp e
      have := this x hx p hp e
      constructor
      · intro h; rw [h] at this; cases this
      · intro f h; rw [h] at this; cases this
    rintro ⟨k, hk, hp⟩
    have := this _ hw _ hk rfl
    rcases hp with rfl | ⟨f, rfl⟩
    · exact this.1 rfl
    · exact this.2 f rfl
  refine ⟨⟨keyword_tok hd h3 h4 h1 (fun _ => logic), tokEnv_refl env t⟩, fun _ hs _ => ?_⟩
  refine (h0 ?_).symm
  rintro ⟨k, hk, hp⟩
  rw [classified_one h3 (.table hk)] at hs
  rcases hp with rfl | ⟨f, rfl⟩ <;> cases hs

/-- An operand missing at the end. -/
example (env : Env) : evaluateArithAny env j!"min(1, 2) +" [] = evaluateArithAny env j!"MIN(1, 2) +" [] :=
  C94_spelling_arith (ts := [j!"min", j!"(", j!"1", j!",", j!"2", j!")", j!"+"])
    (ts' := [j!"MIN", j!"(", j!"1", j!",", j!"2", j!")", j!"+"]) (cut_of (by krfl)) (cut_of (by krfl))
    (.cons ⟨.inr ⟨.fn .min, by decide +kernel, by decide +kernel⟩, fun h => absurd ⟨.fn .min, by decide +kernel, .inr ⟨_, rfl⟩⟩ h⟩
      (.cons ⟨.inl rfl, fun _ => rfl⟩ (.cons ⟨.inl rfl, fun _ => rfl⟩ (.cons ⟨.inl rfl, fun _ => rfl⟩ (.cons ⟨.inl rfl, fun _ => rfl⟩
      (.cons ⟨.inl rfl, fun _ => rfl⟩ (.cons ⟨.inl rfl, fun _ => rfl⟩ .nil)))))))
    (by simp [BoundsKept]) env (fun _ _ _ _ h => nomatch hasEntry_mem h)

/-- **C94**, error reports: how many errors are printed for a text depends only on the kinds of its lexemes. -/
theorem C94_reports {s s' : JStr} {ts ts' : List JStr} (h : Cut s ts) (h' : Cut s' ts')
    (hk : List.Forall₂ SameKind ts ts') : reportedErrors s = reportedErrors s' := by
  rw [← cut_unique h, ← cut_unique h'] at hk
  refine reported_kinds (forall2_imp (forall2_tokens hk (lex_valid _ s (Nat.le_refl _)) (lex_valid _ s' (Nat.le_refl _))) ?_)
  rintro t t' ⟨⟨k, h1, h0⟩, ⟨h2, h3⟩, h4⟩
  rw [classified_one h3 h1, classified_one h4 h0]

example : reportedErrors j!"((x = 17)" = 1 := by
  rw [← C94_reports (s := j!"((a = 5)") (ts := [j!"(", j!"(", j!"a", j!"=", j!"5", j!")"])
    (ts' := [j!"(", j!"(", j!"x", j!"=", j!"17", j!")"]) (cut_of (by krfl)) (cut_of (by krfl)) ?_]
  · krfl
  · have cl : ∀ {t : JStr} {k : TK}, bestMatch t lexRules = some (.tok k, t.length) → Classified t k :=
      fun h => valid_classified (valid_of_best h)
    exact .cons ⟨.lparen, cl (by krfl), cl (by krfl)⟩ (.cons ⟨.lparen, cl (by krfl), cl (by krfl)⟩
      (.cons ⟨.field, cl (by krfl), cl (by krfl)⟩ (.cons ⟨.cmp .eq, cl (by krfl), cl (by krfl)⟩
      (.cons ⟨.integer, cl (by krfl), cl (by krfl)⟩ (.cons ⟨.rparen, cl (by krfl), cl (by krfl)⟩
      .nil)))))

/-- The condition on ranges is needed: the upper bound `1e3` in `a 0 TO 1e3` is not a number of the grammar but a name.
The range is repaired and the name taken as a bound, so another name in its place changes the outcome, though the data
have a field of neither name. -/
theorem C94_bounds_needed : ∃ (s s' : JStr) (ts ts' : List JStr) (d : Data), Cut s ts ∧ Cut s' ts' ∧
    List.Forall₂ (Renames d d) ts ts' ∧ ∀ env, evaluateAny env s d none = .ok true ∧ evaluateAny env s' d none ≠ .ok true := by
  have fld : ∀ f : JStr, bestMatch f lexRules = some (.tok .field, f.length) → Classified f .field :=
    fun f h => valid_classified (valid_of_best h)
  have same : ∀ t, Renames [(j!"a", .int 3)] [(j!"a", .int 3)] t t := fun t => .inl ⟨rfl, fun _ => ⟨fun _ _ _ => Iff.rfl, fun _ _ => Iff.rfl⟩⟩
  refine ⟨j!"a 0 TO 1e3", j!"a 0 TO x", [j!"a", j!"0", j!"TO", j!"1e3"], [j!"a", j!"0", j!"TO", j!"x"], [(j!"a", .int 3)],
    cut_of (by krfl), cut_of (by krfl), ?_, ?_⟩
  · refine .cons (same _) (.cons (same _) (.cons (same _) (.cons (.inr ⟨fld _ (by krfl), fld _ (by krfl), by decide,
      [j!"1e3"], [j!"x"], ⟨⟨by simp, by decide, by decide⟩, 0, rfl⟩, ⟨⟨by simp, by decide, by decide⟩, 0, rfl⟩, ?_⟩) .nil)))
    intro v
    rw [← walkKeys_some, ← walkKeys_some]
    exact Iff.rfl
  · intro env
    have h1 : parseAny j!"a 0 TO 1e3" none = .ok (.range j!"a" (.int 0) (.str j!"1e3") .integer .string) := by krfl
    have h2 : parseAny j!"a 0 TO x" none = .ok (.range j!"a" (.int 0) (.str j!"x") .integer .string) := by krfl
    rw [evaluateAny, h1, evaluateAny, h2, ok_bind, ok_bind, evalBool, evalBool]
    exact ⟨by krfl, by
      rw [show evalRange [(j!"a", .int 3)] j!"a" (.int 0) (.str j!"x") .integer .string = .error .invalidDataType by krfl]
      exact nofun⟩

end BoolParser
