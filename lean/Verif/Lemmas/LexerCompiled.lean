import Verif.Lemmas.LexerRules
/-!
# The compiled lexer cuts like the rules
-/

namespace BoolParser
open Spec

/-- The kind of piece a token type stands for. -/
def kindOfType (i : Nat) : Option LexKind := if i = 40 then some .ws else (tokenKind i).map LexKind.tok

/-- A rule matches the whole text. -/
def fullBy (m : JStr → Option Nat) (w : JStr) : Bool := decide (m w = some w.length)

/-- All rules of the compiled lexer, with the kind of piece they produce if the parser knows one. -/
def altRules : List (Option LexKind × (JStr → Bool)) :=
  (lexRules.take 41).map (fun p => (some p.1, fullBy p.2)) ++
  [(none, accFrom dfa42 0), (none, accFrom dfa43 0), (some (.tok .field), fullBy mField), (none, accFrom dfa45 0),
   (none, accFrom dfa46 0), (none, accFrom dfa47 0)]

/-- The automata are those of the rules, counting from `i`. -/
def MatchesFrom : Nat → List (List DRow) → List (Option LexKind × (JStr → Bool)) → Prop
  | _, [], [] => True
  | i, rows :: D, p :: A => (∀ w, accFrom rows 0 w = p.2 w) ∧ kindOfType i = p.1 ∧ MatchesFrom (i + 1) D A
  | _, _, _ => False

theorem firstAcc_alt {w : JStr} : ∀ {D : List (List DRow)} {A : List (Option LexKind × (JStr → Bool))} {i : Nat},
    MatchesFrom i D A →
    (firstAcc i (runAll w (D.map (fun rows => (rows, some 0))))).map kindOfType =
      (A.find? (fun p => p.2 w)).map Prod.fst
  | [], [], _, _ => rfl
  | [], _ :: _, _, h => h.elim
  | _ :: _, [], _, h => h.elim
  | rows :: D, p :: A, i, h => by
    have ih := firstAcc_alt (w := w) h.2.2
    have e : accAt rows (qrun rows (some 0) w) = p.2 w := h.1 w
    simp only [List.map_cons, runAll, firstAcc, List.find?_cons, e] at ih ⊢
    cases p.2 w with
    | true => simp [h.2.1]
    | false => simpa [runAll] using ih

theorem lit_accepts {rows : List DRow} {m : JStr → Option Nat} {ls : List JStr} (hr : acceptsWords rows ls = true)
    (hm : ∀ w, m w = some w.length ↔ w ∈ ls) (w : JStr) : accFrom rows 0 w = fullBy m w := by
  rw [Bool.eq_iff_iff, acceptsWords_iff hr w, fullBy, decide_eq_true_eq, hm w]

theorem rule_accepts {rows : List DRow} {m : JStr → Option Nat}
    (h : ∀ w, accFrom rows 0 w = true ↔ m w = some w.length) (w : JStr) : accFrom rows 0 w = fullBy m w := by
  rw [Bool.eq_iff_iff, h w, fullBy, decide_eq_true_eq]

theorem lit1_accepts {rows : List DRow} {l : JStr} (hr : acceptsWords rows [l] = true) (w : JStr) :
    accFrom rows 0 w = fullBy (mLit l) w := lit_accepts hr (full_lit l) w

theorem lit2_accepts {rows : List DRow} {l1 l2 : JStr} (hr : acceptsWords rows [l1, l2] = true)
    (h12 : l1.isPrefixOf l2 = false) (w : JStr) :
    accFrom rows 0 w = fullBy (mLit2 l1 l2) w := lit_accepts hr (fun w => full_lit2 l1 l2 w (Or.inl h12)) w

theorem full_lit3 {l l1 l2 : JStr} (h : l.isPrefixOf l1 = false) (h' : l.isPrefixOf l2 = false)
    (h12 : l1.isPrefixOf l2 = false) (w : JStr) :
    (fun s => if l.isPrefixOf s then some l.length else mLit2 l1 l2 s) w = some w.length ↔ w ∈ [l, l1, l2] := by
  simp only
  constructor
  · intro hw
    split at hw
    · rename_i hp
      injection hw with hw
      simp [isPrefixOf_full hp hw]
    · have := (full_lit2 l1 l2 w (Or.inl h12)).mp hw
      simp only [List.mem_cons] at this ⊢
      exact Or.inr this
  · intro hw
    simp only [List.mem_cons, List.not_mem_nil, or_false] at hw
    rcases hw with rfl | hw | hw
    · simp
    · rw [hw, h]
      exact (full_lit2 l1 l2 l1 (Or.inl h12)).mpr (by simp)
    · rw [hw, h']
      exact (full_lit2 l1 l2 l2 (Or.inl h12)).mpr (by simp)

theorem lexer_rules : MatchesFrom 1 lexerDfa altRules := by
  refine ⟨lit1_accepts (by krfl), by krfl, ?_⟩
  refine ⟨lit2_accepts (by krfl) (by krfl), by krfl, ?_⟩
  refine ⟨lit2_accepts (by krfl) (by krfl), by krfl, ?_⟩
  refine ⟨lit_accepts (ls := [j!"AND", j!"and", j!"&&"]) (by krfl) (full_lit3 (by krfl) (by krfl) (by krfl)), by krfl, ?_⟩
  refine ⟨lit_accepts (ls := [j!"OR", j!"or", j!"||"]) (by krfl) (full_lit3 (by krfl) (by krfl) (by krfl)), by krfl, ?_⟩
  iterate 15 refine ⟨lit2_accepts (by krfl) (by krfl), by krfl, ?_⟩
  iterate 14 refine ⟨lit1_accepts (by krfl), by krfl, ?_⟩
  refine ⟨rule_accepts accepts_decimal, by krfl, ?_⟩
  refine ⟨rule_accepts accepts_version, by krfl, ?_⟩
  refine ⟨rule_accepts accepts_integer, by krfl, ?_⟩
  refine ⟨rule_accepts accepts_date, by krfl, ?_⟩
  refine ⟨rule_accepts accepts_datetime, by krfl, ?_⟩
  refine ⟨rule_accepts accepts_ws, by krfl, ?_⟩
  refine ⟨rule_accepts accepts_word, by krfl, ?_⟩
  refine ⟨fun _ => rfl, by krfl, ?_⟩
  refine ⟨fun _ => rfl, by krfl, ?_⟩
  refine ⟨rule_accepts accepts_field, by krfl, ?_⟩
  refine ⟨fun _ => rfl, by krfl, ?_⟩
  refine ⟨fun _ => rfl, by krfl, ?_⟩
  refine ⟨fun _ => rfl, by krfl, ?_⟩
  trivial

/-- The extra rules never come first. -/
theorem alt_first (w : JStr) : (altRules.find? (fun p => p.2 w)).map Prod.fst =
    (lexRules.find? (fun p => fullBy p.2 w)).map (fun p => some p.1) := by
  have hl : lexRules = lexRules.take 41 ++ [(.tok .field, mField)] := by rfl
  have hf : ∀ rs : List (LexKind × (JStr → Option Nat)),
      ((rs.map (fun p => (some p.1, fullBy p.2))).find? (fun p => p.2 w)).map Prod.fst =
      (rs.find? (fun p => fullBy p.2 w)).map (fun p => some p.1) := by
    intro rs
    rw [List.find?_map, Option.map_map]
    rfl
  rw [altRules, List.find?_append]
  conv_rhs => rw [hl, List.find?_append]
  cases h : (lexRules.take 41).find? (fun p => fullBy p.2 w) with
  | some p =>
    have := hf (lexRules.take 41)
    rw [h] at this
    obtain ⟨q, hq, e⟩ := Option.map_eq_some_iff.mp this
    rw [hq]
    simpa using e
  | none =>
    have := hf (lexRules.take 41)
    rw [h] at this
    rw [Option.map_none, Option.map_eq_none_iff] at this
    rw [this]
    have hw : mWord w ≠ some w.length := by
      have := List.find?_eq_none.mp h (.tok .word, mWord) (by simp [lexRules])
      simpa [fullBy] using this
    have hsq : ¬ ClosedBy '\'' w := fun h => hw ((mWord_iff w).mpr (Or.inl h))
    have hdq : ¬ ClosedBy '"' w := fun h => hw ((mWord_iff w).mpr (Or.inr h))
    have h42 : accFrom dfa42 0 w = false := by
      rw [Bool.eq_false_iff]; exact fun h => hsq ((accepts_sq rfl rfl rfl rfl ⟨rfl, rfl, rfl⟩ w).mp h)
    have h46 : accFrom dfa46 0 w = false := by
      rw [Bool.eq_false_iff]; exact fun h => hsq ((accepts_sq rfl rfl rfl rfl ⟨rfl, rfl, rfl⟩ w).mp h)
    have h43 : accFrom dfa43 0 w = false := by
      rw [Bool.eq_false_iff]; exact fun h => hdq ((accepts_dq rfl rfl rfl rfl ⟨rfl, rfl, rfl⟩ w).mp h)
    have h47 : accFrom dfa47 0 w = false := by
      rw [Bool.eq_false_iff]; exact fun h => hdq ((accepts_dq rfl rfl rfl rfl ⟨rfl, rfl, rfl⟩ w).mp h)
    simp only [Option.none_or, List.find?_cons, h42, h43, h46, h47, List.find?_nil]
    cases hm : fullBy mField w with
    | true => rfl
    | false =>
      have h45 : accFrom dfa45 0 w = false := by
        rw [Bool.eq_false_iff]
        intro h
        rw [fullBy, decide_eq_false_iff_not] at hm
        exact hm (accepts_alnum h)
      rw [h45]
      rfl

/-- Before the first character. -/
def startStates : List RuleState := lexerDfa.map (fun rows => (rows, some 0))

/-- The first rule to end after `w`. -/
theorem firstAcc_rules (w : JStr) : (firstAcc 1 (runAll w startStates)).map kindOfType =
    (lexRules.find? (fun p => fullBy p.2 w)).map (fun p => some p.1) := by
  rw [startStates, firstAcc_alt lexer_rules, alt_first]

theorem good_of_table {a : ATN} : ∀ {D : List (List DRow)} {i : Nat}, tableOk a i D = true →
    GoodTables a i (D.map (fun rows => (rows, some 0)))
  | [], _, _ => trivial
  | rows :: D, i, h => by
    simp only [tableOk, Bool.and_eq_true, List.all_eq_true] at h
    exact ⟨h.1, good_of_table h.2⟩

theorem lexer_good : GoodTables lexerAtn 1 startStates := good_of_table lexer_table

theorem lexer_start' : lexerAtn.start = some (cfgsOf startStates) := by
  rw [lexer_start]
  simp only [cfgsOf, startStates, List.map_map, Function.comp_def]

theorem lexer_start_acc : lexerAtn.accepting (cfgsOf startStates) = none := by krfl

/-! ### The longest match -/

/-- The rule that wins matches the piece completely, comes first among those that do, and no rule matches a longer
beginning completely. -/
theorem best_full {s : JStr} {k : LexKind} {n : Nat} (h : bestMatch s lexRules = some (k, n)) :
    ((lexRules.find? (fun p => fullBy p.2 (s.take n))).map Prod.fst = some k) ∧
    ∀ j, n < j → j ≤ s.length → lexRules.find? (fun p => fullBy p.2 (s.take j)) = none := by
  have hn := bestMatch_sane h
  have hmax := bestMatch_max h
  obtain ⟨pre, m, post, e, h1, h2, h3⟩ := bestMatch_some h
  have grow : ∀ p ∈ lexRules, ∀ j ≤ s.length, fullBy p.2 (s.take j) = true → ∃ i, j ≤ i ∧ p.2 s = some i := by
    intro p hp j hj hf
    simp only [fullBy, decide_eq_true_eq] at hf
    obtain ⟨i, hi, hs⟩ := lexRules_grows p hp (s.take j) (s.drop j) hf
    rw [List.take_append_drop] at hs
    rw [List.length_take, Nat.min_eq_left hj] at hi
    exact ⟨i, hi, hs⟩
  constructor
  · have hm : fullBy m (s.take n) = true := by
      have := lexRules_shrinks (k, m) (by rw [e]; simp) s n h1
      simp only [fullBy, decide_eq_true_eq, List.length_take, Nat.min_eq_left hn.2]
      exact this
    have hpre : pre.find? (fun p => fullBy p.2 (s.take n)) = none := by
      rw [List.find?_eq_none]
      intro p hp hf
      obtain ⟨i, hi, hs⟩ := grow p (by rw [e]; simp [hp]) n hn.2 hf
      have := h2 p hp i hs
      omega
    rw [e, List.find?_append, hpre, Option.none_or, List.find?_cons]
    simp only [hm, Option.map_some]
  · intro j hj hl
    rw [List.find?_eq_none]
    intro p hp hf
    obtain ⟨i, hi, hs⟩ := grow p hp j hl hf
    have := hmax p hp i hs
    omega

theorem none_full {s : JStr} (h : bestMatch s lexRules = none) :
    ∀ j, j ≤ s.length → lexRules.find? (fun p => fullBy p.2 (s.take j)) = none := by
  intro j hj
  rw [List.find?_eq_none]
  intro p hp hf
  simp only [fullBy, decide_eq_true_eq] at hf
  obtain ⟨i, hi, hs⟩ := lexRules_grows p hp (s.take j) (s.drop j) hf
  rw [List.take_append_drop, bestMatch_none h p hp] at hs
  cases hs

theorem firstAcc_none {w : JStr} (h : lexRules.find? (fun p => fullBy p.2 w) = none) :
    firstAcc 1 (runAll w startStates) = none := by
  have := firstAcc_rules w
  rw [h, Option.map_none, Option.map_eq_none_iff] at this
  exact this

theorem firstAcc_some {w : JStr} {k : LexKind} (h : (lexRules.find? (fun p => fullBy p.2 w)).map Prod.fst = some k) :
    ∃ i, firstAcc 1 (runAll w startStates) = some i ∧ kindOfType i = some k := by
  have := firstAcc_rules w
  obtain ⟨p, hp, rfl⟩ := Option.map_eq_some_iff.mp h
  rw [hp, Option.map_some] at this
  exact Option.map_eq_some_iff.mp this

/-! ### What is dropped -/

/-- Where a token can start. -/
def firstIvs : List (Nat × Nat) :=
  [(46,46), (48,57), (65,90), (95,95), (97,122), (9,10), (12,13), (32,32), (44,44), (43,43), (45,45), (42,42), (47,47),
   (37,37), (94,94), (62,62), (60,60), (61,61), (40,40), (41,41), (33,33), (38,38), (124,124), (34,34), (39,39)]

theorem first_intervals : lexerDfa.all (fun rows =>
    match rows[0]? with
    | some r => r.edges.all (fun e => firstIvs.any (fun i => decide (i.1 ≤ e.1) && decide (e.2.1 ≤ i.2)))
    | none => true) = true := by krfl

theorem dead_of {ps : List RuleState} {n : Nat} (h : ∀ p ∈ ps, qstep p.1 p.2 n = none) :
    cfgsOf (stepAll n ps) = [] := by
  simp only [cfgsOf, stepAll, List.map_map, List.flatten_eq_nil_iff, List.mem_map, Function.comp_apply]
  rintro l ⟨p, hp, rfl⟩
  rw [h p hp]
  rfl

theorem start_dead {n : Nat} (h : inIvs firstIvs n = false) : cfgsOf (stepAll n startStates) = [] := by
  refine dead_of ?_
  intro p hp
  simp only [startStates, List.mem_map] at hp
  obtain ⟨rows, hrows, rfl⟩ := hp
  have := List.all_eq_true.mp first_intervals rows hrows
  cases hr : rows[0]? with
  | none => simp [qstep, hr]
  | some r =>
    rw [hr] at this
    rw [qstep_row hr]
    cases hn : edgeNext n r.edges with
    | none => rfl
    | some k =>
      obtain ⟨e, he, h1, h2, _⟩ := edgeNext_some hn
      have := List.all_eq_true.mp this e he
      simp only [List.any_eq_true, Bool.and_eq_true, decide_eq_true_eq] at this
      obtain ⟨i, hi, hlo, hhi⟩ := this
      have hc : inIvs firstIvs n = true := by
        simp only [inIvs, List.any_eq_true, Bool.and_eq_true, decide_eq_true_eq]
        exact ⟨i, hi, by omega, by omega⟩
      rw [h] at hc
      cases hc

/-- A character at which a rule can start and which is not one of `!`, `&`, `|` and the quotes starts a match. -/
theorem start_matches {c : Char} {r : JStr} (h : inIvs firstIvs c.toNat = true)
    (hn : c ≠ '!' ∧ c ≠ '&' ∧ c ≠ '|' ∧ c ≠ '\'' ∧ c ≠ '"') : bestMatch (c :: r) lexRules ≠ none := by
  intro hb
  have hnone := bestMatch_none hb
  have hfield : isFieldChar c = false := by
    have := hnone (.tok .field, mField) (by simp [lexRules])
    simp only [mField, nz, List.takeWhile_cons] at this
    cases hc : isFieldChar c with
    | false => rfl
    | true => rw [hc] at this; simp at this
  have hws : isWs c = false := by
    have := hnone (.ws, mWs) (by simp [lexRules])
    simp only [mWs, nz, List.takeWhile_cons] at this
    cases hc : isWs c with
    | false => rfl
    | true => rw [hc] at this; simp at this
  have hlit : ∀ k d, (LexKind.tok k, mLit [d]) ∈ lexRules → c ≠ d := by
    rintro k d hm rfl
    have := hnone _ hm
    simp [mLit] at this
  have h1 := hlit .comma ',' (by simp [lexRules])
  have h2 := hlit (.arith .add) '+' (by simp [lexRules])
  have h3 := hlit (.arith .sub) '-' (by simp [lexRules])
  have h4 := hlit (.arith .mul) '*' (by simp [lexRules])
  have h5 := hlit (.arith .div) '/' (by simp [lexRules])
  have h6 := hlit (.arith .mod) '%' (by simp [lexRules])
  have h7 := hlit (.arith .exp) '^' (by simp [lexRules])
  have h8 := hlit (.cmp .gt) '>' (by simp [lexRules])
  have h9 := hlit (.cmp .lt) '<' (by simp [lexRules])
  have h10 := hlit (.cmp .eq) '=' (by simp [lexRules])
  have h11 := hlit .lparen '(' (by simp [lexRules])
  have h12 := hlit .rparen ')' (by simp [lexRules])
  obtain ⟨n1, n2, n3, n4, n5⟩ := hn
  have conv : ∀ (n : Nat), n.isValidChar → c ≠ Char.ofNat n → c.toNat ≠ n :=
    fun n hv hne e => hne ((char_is c n hv).mpr e)
  replace h1 := conv 44 (by decide) h1
  replace h2 := conv 43 (by decide) h2
  replace h3 := conv 45 (by decide) h3
  replace h4 := conv 42 (by decide) h4
  replace h5 := conv 47 (by decide) h5
  replace h6 := conv 37 (by decide) h6
  replace h7 := conv 94 (by decide) h7
  replace h8 := conv 62 (by decide) h8
  replace h9 := conv 60 (by decide) h9
  replace h10 := conv 61 (by decide) h10
  replace h11 := conv 40 (by decide) h11
  replace h12 := conv 41 (by decide) h12
  replace n1 := conv 33 (by decide) n1
  replace n2 := conv 38 (by decide) n2
  replace n3 := conv 124 (by decide) n3
  replace n4 := conv 39 (by decide) n4
  replace n5 := conv 34 (by decide) n5
  have w1 := char_is c 32 (by decide)
  have w2 := char_is c 13 (by decide)
  have w3 := char_is c 9 (by decide)
  have w4 := char_is c 10 (by decide)
  have w5 := char_is c 95 (by decide)
  change c = ' ' ↔ _ at w1; change c = '\r' ↔ _ at w2; change c = '\t' ↔ _ at w3; change c = '\n' ↔ _ at w4
  change c = '_' ↔ _ at w5
  rw [Bool.eq_false_iff] at hfield hws
  simp only [isFieldChar, isDigit, isWs, Bool.or_eq_true, Bool.and_eq_true, decide_eq_true_eq, beq_iff_eq, dot_iff,
    w1, w2, w3, w4, w5, ne_eq] at hfield hws
  simp only [inIvs, firstIvs, List.any_cons, List.any_nil, Bool.or_eq_true, Bool.and_eq_true, decide_eq_true_eq,
    Bool.or_false, Bool.false_eq_true, or_false] at h
  omega

/-- After an opening quote the automaton goes on to the end of input or the closing quote. -/
theorem live_quote {j : Nat} {q : Char} (hj : ∀ c : Char, qstep dfa41 (some j) c.toNat = if c = q then some 3 else some j)
    (hc : cfgsAt dfa41 (some j) ≠ []) (r : JStr) : ∀ ps : List RuleState, (dfa41, some j) ∈ ps → q ∉ r →
    liveLen ps r = r.length := by
  induction r with
  | nil => intro ps _ _; rfl
  | cons c r ih =>
    intro ps hp hq
    have hcq : c ≠ q := fun e => hq (by simp [e])
    have hm : (dfa41, some j) ∈ stepAll c.toNat ps := by
      simp only [stepAll, List.mem_map]
      exact ⟨_, hp, by simp only [hj c, if_neg hcq]⟩
    have hne : cfgsOf (stepAll c.toNat ps) ≠ [] := by
      intro e
      simp only [cfgsOf, List.flatten_eq_nil_iff, List.mem_map] at e
      exact hc (e _ ⟨_, hm, rfl⟩)
    rw [liveLen, if_neg hne, ih _ hm (fun h => hq (by simp [h]))]
    rfl

/-- Of all rules only rule `i` is still possible after the character `n`, in state 1 or later, and goes on with the
character `m` only. -/
def onlyThen (n m : Nat) : Bool :=
  (stepAll n startStates).all (fun p =>
    match p.2 with
    | none => true
    | some j =>
      match p.1[j]? with
      | none => true
      | some r => r.edges.all (fun e => e.1 == m && e.2.1 == m)) &&
  (cfgsOf (stepAll n startStates)).any (fun _ => true)

theorem live_pair {n m : Nat} (h : onlyThen n m = true) {d : Char} (hd : d.toNat ≠ m) (r : JStr) :
    cfgsOf (stepAll n startStates) ≠ [] ∧ liveLen (stepAll n startStates) (d :: r) = 0 := by
  simp only [onlyThen, Bool.and_eq_true, List.all_eq_true] at h
  constructor
  · intro e
    rw [e] at h
    simp at h
  · rw [liveLen, if_pos]
    refine dead_of ?_
    intro p hp
    have := h.1 p hp
    cases hq : p.2 with
    | none => rfl
    | some j =>
      rw [hq] at this
      simp only at this
      cases hr : p.1[j]? with
      | none => simp [qstep, hr]
      | some row =>
        rw [hr] at this
        rw [qstep_row hr]
        cases hn : edgeNext d.toNat row.edges with
        | none => rfl
        | some k =>
          obtain ⟨e, he, h1, h2, _⟩ := edgeNext_some hn
          have := List.all_eq_true.mp this e he
          simp only [Bool.and_eq_true, beq_iff_eq] at this
          omega

theorem only_bang : onlyThen 33 61 = true := by krfl
theorem only_and : onlyThen 38 38 = true := by krfl
theorem only_or : onlyThen 124 124 = true := by krfl

theorem closed_of_mem {q : Char} (r : JStr) (h : q ∈ r) : (r.takeWhile (· ≠ q)).length < r.length := by
  induction r with
  | nil => cases h
  | cons c r ih =>
    rw [List.takeWhile_cons]
    by_cases hc : c = q
    · simp [hc]
    · have : q ∈ r := by
        rcases List.mem_cons.mp h with e | h
        · exact absurd e.symm hc
        · exact h
      have := ih this
      simp only [ne_eq, hc, not_false_eq_true, decide_true, if_true, List.length_cons]
      simp only [ne_eq] at this
      omega

/-- Without a match, the characters dropped are those of the rules. -/
theorem live_junk {c : Char} {r : JStr} (h : bestMatch (c :: r) lexRules = none) :
    (if liveLen startStates (c :: r) < (c :: r).length then liveLen startStates (c :: r) + 1
      else liveLen startStates (c :: r)) = junkLen (c :: r) := by
  have hnone := bestMatch_none h
  have pair : ∀ (a b : Char) (k : TK) (m : JStr → Option Nat), (LexKind.tok k, m) ∈ lexRules →
      (∀ t, m (a :: b :: t) ≠ none) → onlyThen a.toNat b.toNat = true → c = a → a = '!' ∨ a = '&' ∨ a = '|' →
      a ≠ '\'' ∧ a ≠ '"' →
      (if liveLen startStates (c :: r) < (c :: r).length then liveLen startStates (c :: r) + 1
        else liveLen startStates (c :: r)) = junkLen (c :: r) := by
    intro a b k m hm hmt ho hca ha hq
    subst hca
    have hj : junkLen (c :: r) = min 2 (r.length + 1) := by
      simp only [junkLen]
      rw [if_neg (by simp only [hq.1, hq.2, or_self, not_false_eq_true]), if_pos ha]
    rw [hj]
    have hne : cfgsOf (stepAll c.toNat startStates) ≠ [] := by
      simp only [onlyThen, Bool.and_eq_true] at ho
      intro e
      rw [e] at ho
      simp at ho
    cases r with
    | nil =>
      have hl : liveLen startStates [c] = 1 := by rw [liveLen, if_neg hne]; rfl
      rw [hl]
      simp
    | cons d r =>
      have hd : d.toNat ≠ b.toNat := by
        intro e
        have : d = b := Char.toNat_inj.mp e
        subst this
        exact hmt r (hnone _ hm)
      have hl : liveLen startStates (c :: d :: r) = 1 := by
        rw [liveLen, if_neg hne, (live_pair ho hd r).2]
      rw [hl]
      simp
  by_cases hb : c = '!'
  · exact pair '!' '=' (.cmp .ne) (mLit j!"!=") (by simp [lexRules]) (by intro t; simp [mLit]) only_bang hb
      (by decide) (by decide)
  by_cases ha : c = '&'
  · exact pair '&' '&' .kAnd (fun s => if j!"AND".isPrefixOf s then some 3 else mLit2 j!"and" j!"&&" s)
      (by simp [lexRules]) (by intro t; simp [mLit2, mLit]) only_and ha (by decide) (by decide)
  by_cases ho : c = '|'
  · exact pair '|' '|' .kOr (fun s => if j!"OR".isPrefixOf s then some 2 else mLit2 j!"or" j!"||" s)
      (by simp [lexRules]) (by intro t; simp [mLit2, mLit]) only_or ho (by decide) (by decide)
  have quote : ∀ (q : Char) (j : Nat), c = q → (q = '\'' ∨ q = '"') →
      (∀ c : Char, qstep dfa41 (some j) c.toNat = if c = q then some 3 else some j) → cfgsAt dfa41 (some j) ≠ [] →
      qstep dfa41 (some 0) q.toNat = some j →
      (if liveLen startStates (c :: r) < (c :: r).length then liveLen startStates (c :: r) + 1
        else liveLen startStates (c :: r)) = junkLen (c :: r) := by
    intro q j hcq hq hj hcf h0
    subst hcq
    have hnq : c ∉ r := by
      intro hm
      have := hnone (.tok .word, mWord) (by simp [lexRules])
      simp only [mWord, if_pos hq] at this
      rw [if_pos (closed_of_mem r hm)] at this
      cases this
    have hmem : (dfa41, some j) ∈ stepAll c.toNat startStates := by
      simp only [stepAll, List.mem_map, startStates]
      exact ⟨(dfa41, some 0), ⟨dfa41, by simp [lexerDfa], rfl⟩, by simp only [h0]⟩
    have hne : cfgsOf (stepAll c.toNat startStates) ≠ [] := by
      intro e
      simp only [cfgsOf, List.flatten_eq_nil_iff, List.mem_map] at e
      exact hcf (e _ ⟨_, hmem, rfl⟩)
    have hl : liveLen startStates (c :: r) = r.length + 1 := by
      rw [liveLen, if_neg hne, live_quote hj hcf r _ hmem hnq]
    rw [hl, List.length_cons, if_neg (Nat.lt_irrefl _), junkLen, if_pos hq]
  by_cases hs : c = '\''
  · exact quote '\'' 2 hs (by decide) (step_in_sq rfl rfl) (by decide) (by decide)
  by_cases hd : c = '"'
  · exact quote '"' 1 hd (by decide) (step_in_dq rfl rfl) (by decide) (by decide)
  have hdead : inIvs firstIvs c.toNat = false := by
    rw [Bool.eq_false_iff]
    exact fun hi => start_matches hi ⟨hb, ha, ho, hs, hd⟩ h
  have hl : liveLen startStates (c :: r) = 0 := by rw [liveLen, if_pos (start_dead hdead)]
  rw [hl, if_pos (by simp), junkLen, if_neg (by simp [hs, hd]), if_neg (by simp [hb, ha, ho])]

/-! ### Pieces -/

/-- The compiled lexer's next piece is the one the rules give. -/
theorem nextPiece_eq (c : Char) (r : JStr) : lexerAtn.nextPiece (c :: r) = some (lexStep (c :: r)) := by
  generalize hs : c :: r = s
  obtain ⟨best', he, h⟩ := exec_spec s startStates 0 none lexer_good
  simp only [ATN.nextPiece, lexer_start', Option.bind_eq_bind, Option.bind_some, lexer_start_acc, Option.map_none, he,
    Nat.zero_add, Option.pure_def]
  cases hb : bestMatch s lexRules with
  | none =>
    have hno := none_full hb
    rcases h with ⟨e, _⟩ | ⟨k, x, i, hk, hkl, e, hf, _⟩
    · rw [e]
      simp only [lexStep, hb]
      subst hs
      rw [live_junk hb]
    · rw [firstAcc_none (hno k hkl)] at hf; cases hf
  | some p =>
    obtain ⟨kind, n⟩ := p
    have hn := bestMatch_sane hb
    obtain ⟨h1, h2⟩ := best_full hb
    obtain ⟨i, hi, hki⟩ := firstAcc_some h1
    rcases h with ⟨e, hno⟩ | ⟨k, x, i', hk, hkl, e, hf, ht, hsk, hlast⟩
    · rw [hno n hn.1 hn.2] at hi; cases hi
    · have hkn : k = n := by
        rcases Nat.lt_trichotomy k n with hlt | heq | hgt
        · rw [hlast n hlt hn.2] at hi; cases hi
        · exact heq
        · rw [firstAcc_none (h2 k hgt hkl)] at hf; cases hf
      subst hkn
      rw [hi] at hf
      injection hf with hf
      subst hf
      rw [e]
      simp only [hsk, ht, Nat.zero_add, Option.bind_some, lexStep, hb]
      unfold kindOfType at hki
      by_cases h40 : i = 40
      · rw [if_pos h40] at hki
        injection hki with hki
        subst hki
        simp [h40]
      · rw [if_neg h40] at hki
        obtain ⟨tk, htk, rfl⟩ := Option.map_eq_some_iff.mp hki
        simp [h40, htk]

theorem piecesGo_eq (f : Nat) : ∀ s : JStr, s.length ≤ f → lexerAtn.piecesGo f s = some (lexGo f s) := by
  induction f with
  | zero =>
    intro s hs
    have : s = [] := List.eq_nil_of_length_eq_zero (Nat.le_zero.mp hs)
    subst this
    rfl
  | succ f ih =>
    intro s hs
    cases s with
    | nil => rfl
    | cons c r =>
      have hpos : 0 < (lexStep (c :: r)).2 := by
        simp only [lexStep]
        cases hb : bestMatch (c :: r) lexRules with
        | none =>
          simp only [junkLen]
          split
          · omega
          · split <;> omega
        | some p =>
          obtain ⟨k, n⟩ := p
          have := (bestMatch_sane hb).1
          cases k <;> exact this
      have hl : ((c :: r).drop (lexStep (c :: r)).2).length ≤ f := by
        rw [List.length_drop]; simp at hs ⊢; omega
      simp only [ATN.piecesGo, nextPiece_eq, Option.bind_eq_bind, Option.bind_some, ih _ hl, Option.pure_def, lexGo]

theorem compiledLexer_eq (s : JStr) : compiledLexer s = some (lexItems s) := by
  simp only [compiledLexer, lexer_deserialize, Option.bind_eq_bind, Option.bind_some, lexItems]
  exact piecesGo_eq s.length s (Nat.le_refl _)

end BoolParser
