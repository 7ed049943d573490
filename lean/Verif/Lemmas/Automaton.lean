import Verif.Lemmas.LexerCheck
/-!
# Running the lexer's automaton rule by rule
-/

namespace BoolParser

/-! ### Characters between two bounds are alike -/

/-- Two code points no test tells apart. -/
def Alike (is : List (Nat × Nat)) (n b : Nat) : Prop := ∀ i ∈ is, (i.1 ≤ n ↔ i.1 ≤ b) ∧ (n ≤ i.2 ↔ b ≤ i.2)

theorem greatest_below (n : Nat) (bs : List Nat) :
    (∃ b ∈ bs, b ≤ n) → ∃ b ∈ bs, b ≤ n ∧ ∀ b' ∈ bs, b' ≤ n → b' ≤ b := by
  induction bs with
  | nil => rintro ⟨b, hb, _⟩; cases hb
  | cons y ys ihy =>
    rintro ⟨b, hb, hbn⟩
    by_cases hy : ∃ b ∈ ys, b ≤ n
    · obtain ⟨b, hb, hn, hm⟩ := ihy hy
      by_cases hc : y ≤ n ∧ b < y
      · refine ⟨y, by simp, hc.1, ?_⟩
        intro b' hb' hn'
        rcases List.mem_cons.mp hb' with e | hb'
        · omega
        · have := hm b' hb' hn'; omega
      · refine ⟨b, by simp [hb], hn, ?_⟩
        intro b' hb' hn'
        rcases List.mem_cons.mp hb' with e | hb'
        · subst e; omega
        · exact hm b' hb' hn'
    · rcases List.mem_cons.mp hb with e | hb
      · subst e
        refine ⟨b, by simp, hbn, ?_⟩
        intro b' hb' hn'
        rcases List.mem_cons.mp hb' with e | hb'
        · omega
        · exact absurd ⟨b', hb', hn'⟩ hy
      · exact absurd ⟨b, hb, hbn⟩ hy

theorem alike_bounds {is : List (Nat × Nat)} {bs : List Nat} (hs : ∀ b ∈ bounds is, b ∈ bs) {n b : Nat}
    (hn : b ≤ n) (hm : ∀ b' ∈ bs, b' ≤ n → b' ≤ b) : Alike is n b := by
  intro i hi
  have h1 : i.1 ∈ bs := hs _ (List.mem_flatMap.mpr ⟨i, hi, by simp⟩)
  have h2 : i.2 + 1 ∈ bs := hs _ (List.mem_flatMap.mpr ⟨i, hi, by simp⟩)
  have h1' := hm _ h1
  have h2' := hm _ h2
  constructor <;> constructor <;> omega

theorem Alike.sub {is js : List (Nat × Nat)} {n b : Nat} (h : Alike is n b) (hs : ∀ j ∈ js, j ∈ is) : Alike js n b :=
  fun j hj => h j (hs j hj)

theorem alike_inIvs {is : List (Nat × Nat)} {n b : Nat} (h : Alike is n b) : inIvs is n = inIvs is b := by
  unfold inIvs
  induction is with
  | nil => rfl
  | cons i is ih =>
    have hi := h i (by simp)
    have hr := ih (h.sub (fun j hj => by simp [hj]))
    simp only [List.any_cons, hr, decide_eq_decide.mpr hi.1, decide_eq_decide.mpr hi.2]

theorem alike_target {t : ATrans} {n b : Nat} (h : Alike t.ivs n b) : t.target n = t.target b := by
  cases t with
  | eps t => rfl
  | rule s f p => rfl
  | pred t => rfl
  | action i t => rfl
  | prec p t => rfl
  | atom c t =>
    have hi := h (c, c) (by simp [ATrans.ivs])
    simp only at hi
    simp only [ATrans.target]
    have : n = c ↔ b = c := by
      constructor <;> intro h <;> omega
    simp only [this]
  | range lo hi t =>
    have hi := h (lo, hi) (by simp [ATrans.ivs])
    simp only at hi
    simp only [ATrans.target, hi.1, hi.2]
  | set is t => simp only [ATrans.target, alike_inIvs (is := is) h]
  | notSet is t =>
    have hi := h (0, 1114111) (by simp [ATrans.ivs])
    simp only at hi
    simp only [ATrans.target, alike_inIvs (is := is) (h.sub (fun j hj => by simp [ATrans.ivs, hj])), hi.2]
  | wildcard t =>
    have hi := h (0, 1114111) (by simp [ATrans.ivs])
    simp only at hi
    simp only [ATrans.target, hi.2]

theorem follow_congr (a : ATN) {n b : Nat} (x : Cfg) (flag : Bool) (ts : List ATrans)
    (h : ∀ t ∈ ts, t.target n = t.target b) : a.follow n x flag ts = a.follow b x flag ts := by
  induction ts with
  | nil => rfl
  | cons t ts ih =>
    have ih := ih (fun t' ht => h t' (by simp [ht]))
    simp only [ATN.follow, h t (by simp), ih]

theorem reachGo_congr (a : ATN) {n b : Nat} (xs : List Cfg) (skip : Option Nat)
    (h : ∀ x ∈ xs, ∀ t ∈ a.transitions x.state, t.target n = t.target b) :
    a.reachGo n skip xs = a.reachGo b skip xs := by
  induction xs generalizing skip with
  | nil => rfl
  | cons x xs ih =>
    have ih := fun s => ih s (fun y hy => h y (by simp [hy]))
    simp only [ATN.reachGo, follow_congr a x _ _ (h x (by simp)), ih]

theorem reach_congr (a : ATN) {n b : Nat} (xs : List Cfg)
    (h : ∀ x ∈ xs, ∀ t ∈ a.transitions x.state, t.target n = t.target b) : a.reach xs n = a.reach xs b := by
  simp only [ATN.reach, reachGo_congr a xs none h]

theorem next_congr {r : DRow} {n b : Nat} (h : Alike (r.edges.map (fun e => (e.1, e.2.1))) n b) :
    r.next n = r.next b := by
  unfold DRow.next
  congr 1
  generalize r.edges = es at h
  induction es with
  | nil => rfl
  | cons e es ih =>
    have he := h (e.1, e.2.1) (by simp)
    simp only at he
    have ih := ih (h.sub (fun j hj => by simp only [List.map_cons, List.mem_cons]; exact Or.inr hj))
    simp only [List.find?_cons, decide_eq_decide.mpr he.1, decide_eq_decide.mpr he.2, ih]

/-- A row that is right says what is reached from its configurations. -/
theorem row_reach {a : ATN} {i : Nat} {rows : List DRow} {r : DRow} (h : rowOk a i rows r = true) (n : Nat) :
    a.reach r.cfgs n = some (cfgsAt rows (r.next n)) := by
  obtain ⟨b, hb, hn, hm⟩ := greatest_below n (r.points a) ⟨0, by simp [DRow.points], Nat.zero_le n⟩
  have h1 : Alike ((r.cfgs.flatMap (fun x => a.transitions x.state)).flatMap ATrans.ivs) n b :=
    alike_bounds (bs := r.points a) (fun b hb => by simp [DRow.points, hb]) hn hm
  have h2 : Alike (r.edges.map (fun e => (e.1, e.2.1))) n b :=
    alike_bounds (bs := r.points a) (fun b hb => by
      simp only [DRow.points, List.mem_cons, List.mem_append]; exact Or.inr (Or.inr hb)) hn hm
  rw [next_congr h2, reach_congr a r.cfgs (n := n) (b := b)]
  · simp only [rowOk, Bool.and_eq_true, List.all_eq_true] at h
    have := h.2 b hb
    exact eq_of_beq this
  · intro x hx t ht
    refine alike_target (h1.sub fun j hj => ?_)
    simp only [List.mem_flatMap]
    exact ⟨t, ⟨x, hx, ht⟩, hj⟩

/-! ### Rules do not disturb each other -/

theorem eachEps_alt {a : ATN} {rec : Cfg → Bool → Option (List Cfg × Bool)} {x : Cfg}
    (hrec : ∀ y f l f', rec y f = some (l, f') → ∀ z ∈ l, z.alt = y.alt) (ts : List ATrans) :
    ∀ f l f', a.eachEps rec x f ts = some (l, f') → ∀ z ∈ l, z.alt = x.alt := by
  induction ts with
  | nil => intro f l f' h z hz; simp only [ATN.eachEps, Option.some.injEq, Prod.mk.injEq] at h; rw [← h.1] at hz; cases hz
  | cons t ts ih =>
    intro f l f' h z hz
    simp only [ATN.eachEps] at h
    split at h
    · exact ih f l f' h z hz
    · rename_i y hy
      have hya : y.alt = x.alt := by
        cases t <;> simp only [ATN.epsTarget, Option.some.injEq, reduceCtorEq] at hy
        case action i t => split at hy <;> (injection hy with hy; subst hy; rfl)
        all_goals (subst hy; rfl)
      split at h
      · cases h
      · rename_i l1 f1 h1
        split at h
        · cases h
        · rename_i l2 f2 h2
          simp only [Option.some.injEq, Prod.mk.injEq] at h
          rw [← h.1] at hz
          rcases List.mem_append.mp hz with hz | hz
          · rw [hrec y f l1 f1 h1 z hz, hya]
          · exact ih f1 l2 f2 h2 z hz

theorem closure_alt (a : ATN) (fuel : Nat) :
    ∀ x f l f', a.closure fuel x f = some (l, f') → ∀ z ∈ l, z.alt = x.alt := by
  induction fuel with
  | zero => intro x f l f' h; simp only [ATN.closure, reduceCtorEq] at h
  | succ k ih =>
    intro x f l f' h z hz
    simp only [ATN.closure] at h
    split at h
    · split at h
      · simp only [Option.some.injEq, Prod.mk.injEq] at h
        rw [← h.1] at hz
        simp only [List.mem_singleton] at hz
        rw [hz]
      · have := ih _ _ _ _ h z hz
        exact this
    · split at h
      · cases h
      · rename_i l1 f1 h1
        simp only [Option.some.injEq, Prod.mk.injEq] at h
        rw [← h.1] at hz
        rcases List.mem_append.mp hz with hz | hz
        · split at hz
          · cases hz
          · simp only [List.mem_singleton] at hz; rw [hz]
        · exact eachEps_alt ih _ _ _ _ h1 z hz

theorem follow_alt (a : ATN) (c : Nat) (x : Cfg) (flag : Bool) (ts : List ATrans) :
    ∀ l b, a.follow c x flag ts = some (l, b) → ∀ z ∈ l, z.alt = x.alt := by
  induction ts with
  | nil => intro l b h z hz; simp only [ATN.follow, Option.some.injEq, Prod.mk.injEq] at h; rw [← h.1] at hz; cases hz
  | cons t ts ih =>
    intro l b h z hz
    simp only [ATN.follow] at h
    split at h
    · exact ih l b h z hz
    · split at h
      · cases h
      · rename_i l1 h1
        simp only [Option.some.injEq, Prod.mk.injEq] at h
        rw [← h.1] at hz
        exact closure_alt a _ _ _ _ _ h1 z hz
      · rename_i l1 h1
        split at h
        · cases h
        · rename_i l2 b2 h2
          simp only [Option.some.injEq, Prod.mk.injEq] at h
          rw [← h.1] at hz
          rcases List.mem_append.mp hz with hz | hz
          · exact closure_alt a _ _ _ _ _ h1 z hz
          · exact ih l2 b2 h2 z hz

theorem reachGo_alt (a : ATN) (c : Nat) (xs : List Cfg) :
    ∀ skip l, a.reachGo c skip xs = some l → ∀ z ∈ l, ∃ x ∈ xs, z.alt = x.alt := by
  induction xs with
  | nil => intro skip l h z hz; simp only [ATN.reachGo, Option.some.injEq] at h; rw [← h] at hz; cases hz
  | cons x xs ih =>
    intro skip l h z hz
    simp only [ATN.reachGo] at h
    split at h
    · obtain ⟨y, hy, e⟩ := ih skip l h z hz
      exact ⟨y, by simp [hy], e⟩
    · split at h
      · cases h
      · rename_i l1 b1 h1
        split at h
        · cases h
        · rename_i l2 h2
          simp only [Option.some.injEq] at h
          rw [← h] at hz
          rcases List.mem_append.mp hz with hz | hz
          · exact ⟨x, by simp, follow_alt a c x _ _ _ _ h1 z hz⟩
          · obtain ⟨y, hy, e⟩ := ih _ l2 h2 z hz
            exact ⟨y, by simp [hy], e⟩

/-- A rule that has reached its end matters only to itself. -/
theorem reachGo_skip (a : ATN) (c : Nat) (xs : List Cfg) :
    ∀ skip, (∀ x ∈ xs, skip ≠ some x.alt) → a.reachGo c skip xs = a.reachGo c none xs := by
  induction xs with
  | nil => intro _ _; rfl
  | cons x xs ih =>
    intro skip h
    have hx : (skip == some x.alt) = false := by
      have := h x (by simp)
      simpa using this
    have hn : ((none : Option Nat) == some x.alt) = false := rfl
    simp only [ATN.reachGo, hx, hn, Bool.false_and, Bool.false_eq_true, if_false]
    split
    · rfl
    · rename_i l hit _
      cases hit
      · simp only [Bool.false_eq_true, if_false, ih skip (fun y hy => h y (by simp [hy]))]
      · rfl

theorem reachGo_append (a : ATN) (c : Nat) (xs ys : List Cfg) :
    ∀ skip, (∀ y ∈ ys, skip ≠ some y.alt) → (∀ x ∈ xs, ∀ y ∈ ys, x.alt ≠ y.alt) →
    a.reachGo c skip (xs ++ ys) = (match a.reachGo c skip xs, a.reachGo c none ys with
      | some l, some l' => some (l ++ l')
      | _, _ => none) := by
  induction xs with
  | nil =>
    intro skip hs _
    rw [List.nil_append, reachGo_skip a c ys skip hs]
    simp only [ATN.reachGo]
    cases a.reachGo c none ys <;> rfl
  | cons x xs ih =>
    intro skip hs hd
    have hd' : ∀ x ∈ xs, ∀ y ∈ ys, x.alt ≠ y.alt := fun z hz => hd z (by simp [hz])
    have ih1 := ih skip hs hd'
    have ih2 := ih (some x.alt) (fun y hy e => hd x (by simp) y hy (by injection e)) hd'
    simp only [List.cons_append, ATN.reachGo]
    split
    · rw [ih1]
    · cases hf : a.follow c x (skip == some x.alt) (a.transitions x.state) with
      | none => simp
      | some p =>
        obtain ⟨l, hit⟩ := p
        cases hit
        · simp only [Bool.false_eq_true, if_false, ih1]
          cases a.reachGo c skip xs <;> cases a.reachGo c none ys <;> simp
        · simp only [if_true, ih2]
          cases a.reachGo c (some x.alt) xs <;> cases a.reachGo c none ys <;> simp

theorem mem_keepFirst {xs : List Cfg} {x : Cfg} (h : x ∈ ATN.keepFirst xs) : x ∈ xs := by
  induction xs with
  | nil => cases h
  | cons y ys ih =>
    simp only [ATN.keepFirst, List.mem_cons, List.mem_filter] at h
    rcases h with h | h
    · simp [h]
    · simp [ih h.1]

theorem keepFirst_append {xs ys : List Cfg} (hd : ∀ x ∈ xs, ∀ y ∈ ys, x ≠ y) :
    ATN.keepFirst (xs ++ ys) = ATN.keepFirst xs ++ ATN.keepFirst ys := by
  induction xs with
  | nil => rfl
  | cons x xs ih =>
    have ih := ih (fun z hz => hd z (by simp [hz]))
    simp only [List.cons_append, ATN.keepFirst, ih, List.filter_append, List.cons.injEq, true_and]
    congr 1
    rw [List.filter_eq_self]
    intro y hy
    have := hd x (by simp) y (mem_keepFirst hy)
    simpa using this.symm

/-- Different rules are followed separately. -/
theorem reach_append (a : ATN) (c : Nat) (xs ys : List Cfg) (hd : ∀ x ∈ xs, ∀ y ∈ ys, x.alt ≠ y.alt)
    {l l' : List Cfg} (h : a.reach xs c = some l) (h' : a.reach ys c = some l') :
    a.reach (xs ++ ys) c = some (l ++ l') := by
  simp only [ATN.reach, Option.map_eq_some_iff] at h h' ⊢
  obtain ⟨m, hm, e⟩ := h
  obtain ⟨m', hm', e'⟩ := h'
  refine ⟨m ++ m', ?_, ?_⟩
  · rw [reachGo_append a c xs ys none (by simp) hd, hm, hm']
  · rw [keepFirst_append, e, e']
    intro x hx y hy e
    obtain ⟨x', hx', ex⟩ := reachGo_alt a c xs none m hm x hx
    obtain ⟨y', hy', ey⟩ := reachGo_alt a c ys none m' hm' y hy
    exact hd x' hx' y' hy' (by rw [← ex, ← ey, e])

/-! ### All rules together -/

/-- The state of one rule's automaton. -/
abbrev RuleState := List DRow × Option Nat

/-- One character further. -/
def qstep (rows : List DRow) (q : Option Nat) (n : Nat) : Option Nat :=
  match q with
  | none => none
  | some j =>
    match rows[j]? with
    | some r => r.next n
    | none => none

/-- May the rule end here? -/
def accAt (rows : List DRow) (q : Option Nat) : Bool :=
  match q with
  | none => false
  | some j =>
    match rows[j]? with
    | some r => r.acc
    | none => false

/-- A text further. -/
def qrun (rows : List DRow) : Option Nat → JStr → Option Nat
  | q, [] => q
  | q, c :: w => qrun rows (qstep rows q c.toNat) w

/-- The configurations of all rules. -/
def cfgsOf (ps : List RuleState) : List Cfg := (ps.map (fun p => cfgsAt p.1 p.2)).flatten

/-- One character further, all rules. -/
def stepAll (n : Nat) (ps : List RuleState) : List RuleState := ps.map (fun p => (p.1, qstep p.1 p.2 n))

/-- A text further, all rules. -/
def runAll (w : JStr) (ps : List RuleState) : List RuleState := ps.map (fun p => (p.1, qrun p.1 p.2 w))

/-- The tables are right, counting rules from `i`. -/
def GoodTables (a : ATN) : Nat → List RuleState → Prop
  | _, [] => True
  | i, p :: ps => (∀ r ∈ p.1, rowOk a i p.1 r = true) ∧ GoodTables a (i + 1) ps

theorem GoodTables.step {a : ATN} {n : Nat} : ∀ {ps : List RuleState} {i : Nat}, GoodTables a i ps → GoodTables a i (stepAll n ps)
  | [], _, _ => trivial
  | _ :: _, _, h => ⟨h.1, GoodTables.step h.2⟩

theorem GoodTables.run {a : ATN} {w : JStr} : ∀ {ps : List RuleState} {i : Nat}, GoodTables a i ps → GoodTables a i (runAll w ps)
  | [], _, _ => trivial
  | _ :: _, _, h => ⟨h.1, GoodTables.run h.2⟩

theorem cfgsAt_mem {rows : List DRow} {q : Option Nat} {x : Cfg} (h : x ∈ cfgsAt rows q) :
    ∃ r ∈ rows, x ∈ r.cfgs := by
  unfold cfgsAt at h
  split at h
  · cases h
  · split at h
    · rename_i r hr
      exact ⟨r, List.mem_of_getElem? hr, h⟩
    · cases h

theorem row_cfg {a : ATN} {i : Nat} {rows : List DRow} {r : DRow} (h : rowOk a i rows r = true) {x : Cfg}
    (hx : x ∈ r.cfgs) : cfgOk a i x = true := by
  simp only [rowOk, Bool.and_eq_true, List.all_eq_true] at h
  exact h.1.1.1.2 x hx

theorem cfgsAt_ok {a : ATN} {i : Nat} {rows : List DRow} (h : ∀ r ∈ rows, rowOk a i rows r = true) {q : Option Nat}
    {x : Cfg} (hx : x ∈ cfgsAt rows q) : cfgOk a i x = true := by
  obtain ⟨r, hr, hx⟩ := cfgsAt_mem hx
  exact row_cfg (h r hr) hx

theorem cfgOk_alt {a : ATN} {i : Nat} {x : Cfg} (h : cfgOk a i x = true) : x.alt = i := by
  simp only [cfgOk, Bool.and_eq_true] at h
  exact eq_of_beq h.1

theorem good_alt {a : ATN} : ∀ {ps : List RuleState} {i : Nat}, GoodTables a i ps → ∀ x ∈ cfgsOf ps, i ≤ x.alt
  | [], _, _ => fun x hx => by simp [cfgsOf] at hx
  | p :: ps, i, h => fun x hx => by
    simp only [cfgsOf, List.map_cons, List.flatten_cons, List.mem_append] at hx
    rcases hx with hx | hx
    · rw [cfgOk_alt (cfgsAt_ok h.1 hx)]; exact Nat.le_refl _
    · have := good_alt h.2 x hx
      omega

theorem rule_reach {a : ATN} {i : Nat} {rows : List DRow} (h : ∀ r ∈ rows, rowOk a i rows r = true) (q : Option Nat)
    (n : Nat) : a.reach (cfgsAt rows q) n = some (cfgsAt rows (qstep rows q n)) := by
  cases q with
  | none => rfl
  | some j =>
    simp only [cfgsAt, qstep]
    cases hr : rows[j]? with
    | none => rfl
    | some r => exact row_reach (h r (List.mem_of_getElem? hr)) n

theorem all_reach {a : ATN} (n : Nat) : ∀ {ps : List RuleState} {i : Nat}, GoodTables a i ps →
    a.reach (cfgsOf ps) n = some (cfgsOf (stepAll n ps))
  | [], _, _ => rfl
  | p :: ps, i, h => by
    have h1 := rule_reach h.1 p.2 n
    have h2 := all_reach n h.2
    simp only [cfgsOf, stepAll, List.map_cons, List.flatten_cons] at h1 h2 ⊢
    refine reach_append a n _ _ ?_ h1 h2
    intro x hx y hy
    have hx' := cfgOk_alt (cfgsAt_ok h.1 hx)
    have hy' := good_alt h.2 y (by simpa only [cfgsOf] using hy)
    omega

/-- The first rule that may end. -/
def firstAcc : Nat → List RuleState → Option Nat
  | _, [] => none
  | i, p :: ps => if accAt p.1 p.2 then some i else firstAcc (i + 1) ps

theorem rule_accepting {a : ATN} {i : Nat} {rows : List DRow} (h : ∀ r ∈ rows, rowOk a i rows r = true)
    (q : Option Nat) : (a.accepting (cfgsAt rows q)).isSome = accAt rows q := by
  cases q with
  | none => rfl
  | some j =>
    simp only [cfgsAt, accAt]
    cases hr : rows[j]? with
    | none => rfl
    | some r =>
      have := h r (List.mem_of_getElem? hr)
      simp only [rowOk, Bool.and_eq_true] at this
      exact eq_of_beq this.1.1.2

theorem accepting_append (a : ATN) (xs ys : List Cfg) :
    a.accepting (xs ++ ys) = (a.accepting xs).or (a.accepting ys) := by
  simp only [ATN.accepting, List.find?_append]

theorem all_accepting {a : ATN} : ∀ {ps : List RuleState} {i : Nat}, GoodTables a i ps →
    (firstAcc i ps = none → a.accepting (cfgsOf ps) = none) ∧
    (∀ k, firstAcc i ps = some k → ∃ x, a.accepting (cfgsOf ps) = some x ∧ a.tokenType x = some k ∧
      a.skips x = (k == 40))
  | [], _, _ => ⟨fun _ => rfl, fun k h => by simp [firstAcc] at h⟩
  | p :: ps, i, h => by
    have h1 := rule_accepting h.1 p.2
    obtain ⟨h2, h3⟩ := all_accepting h.2
    have e : a.accepting (cfgsOf (p :: ps)) = (a.accepting (cfgsAt p.1 p.2)).or (a.accepting (cfgsOf ps)) := by
      simp only [cfgsOf, List.map_cons, List.flatten_cons, accepting_append]
    rw [e]
    simp only [firstAcc]
    cases hc : accAt p.1 p.2 with
    | true =>
      rw [hc] at h1
      obtain ⟨x, hx⟩ := Option.isSome_iff_exists.mp h1
      refine ⟨by simp, ?_⟩
      intro k hk
      simp only [if_true, Option.some.injEq] at hk
      subst hk
      rw [hx]
      refine ⟨x, rfl, ?_⟩
      have hm := List.mem_of_find?_eq_some hx
      have hs := List.find?_some hx
      have hok := cfgsAt_ok h.1 hm
      simp only [cfgOk, Bool.and_eq_true, Bool.or_eq_true, Bool.not_eq_true', hs, Bool.true_eq_false, false_or] at hok
      exact ⟨eq_of_beq hok.2.1, eq_of_beq hok.2.2⟩
    | false =>
      rw [hc] at h1
      have hx : a.accepting (cfgsAt p.1 p.2) = none := by
        cases hq : a.accepting (cfgsAt p.1 p.2) with
        | none => rfl
        | some _ => rw [hq] at h1; simp at h1
      rw [hx]
      simp only [Bool.false_eq_true, if_false, Option.none_or]
      exact ⟨h2, h3⟩

/-! ### The whole run -/

/-- The characters read while some rule is still possible. -/
def liveLen : List RuleState → JStr → Nat
  | _, [] => 0
  | ps, c :: r => if cfgsOf (stepAll c.toNat ps) = [] then 0 else liveLen (stepAll c.toNat ps) r + 1

theorem stepAll_runAll (c : Char) (w : JStr) (ps : List RuleState) :
    runAll w (stepAll c.toNat ps) = runAll (c :: w) ps := by
  simp only [runAll, stepAll, List.map_map, Function.comp_def, qrun]

theorem runAll_nil (ps : List RuleState) : runAll [] ps = ps := by
  simp [runAll, qrun]

theorem cfgsOf_dead {a : ATN} : ∀ {ps : List RuleState} {i : Nat}, GoodTables a i ps → cfgsOf ps = [] → ∀ w i,
    firstAcc i (runAll w ps) = none
  | [], _, _, _ => fun _ _ => rfl
  | p :: ps, i, h, he => fun w k => by
    simp only [cfgsOf, List.map_cons, List.flatten_cons, List.append_eq_nil_iff] at he
    have h2 := cfgsOf_dead h.2 he.2 w (k + 1)
    have hd : ∀ w q, cfgsAt p.1 q = [] → accAt p.1 (qrun p.1 q w) = false := by
      intro w
      induction w with
      | nil =>
        intro q hq
        have := rule_accepting h.1 q
        rw [hq] at this
        exact this.symm
      | cons c w ih =>
        intro q hq
        refine ih _ ?_
        have := rule_reach h.1 q c.toNat
        rw [hq] at this
        have e : a.reach [] c.toNat = some [] := rfl
        rw [e] at this
        injection this with this
        exact this.symm
    simp only [runAll, List.map_cons, firstAcc, hd w p.2 he.1, Bool.false_eq_true, if_false]
    exact h2

/-- What the simulator finds: the last place where some rule may end, and the first such rule. -/
theorem exec_spec {a : ATN} (s : JStr) : ∀ (ps : List RuleState) (n : Nat) (best : Option (Nat × Cfg)), GoodTables a 1 ps →
    ∃ best', a.exec (cfgsOf ps) n best s = some (n + liveLen ps s, best') ∧
      ((best' = best ∧ ∀ k, 0 < k → k ≤ s.length → firstAcc 1 (runAll (s.take k) ps) = none) ∨
       (∃ k x i, 0 < k ∧ k ≤ s.length ∧ best' = some (n + k, x) ∧ firstAcc 1 (runAll (s.take k) ps) = some i ∧
          a.tokenType x = some i ∧ a.skips x = (i == 40) ∧
          ∀ k', k < k' → k' ≤ s.length → firstAcc 1 (runAll (s.take k') ps) = none)) := by
  induction s with
  | nil =>
    intro ps n best _
    exact ⟨best, rfl, Or.inl ⟨rfl, fun k hk hl => by simp at hl; omega⟩⟩
  | cons c r ih =>
    intro ps n best hg
    have hr := all_reach c.toNat hg
    have hg' : GoodTables a 1 (stepAll c.toNat ps) := hg.step
    cases hc : cfgsOf (stepAll c.toNat ps) with
    | nil =>
      refine ⟨best, ?_, Or.inl ⟨rfl, ?_⟩⟩
      · simp only [ATN.exec, hr, hc, liveLen, if_true, Nat.add_zero]
      · intro k hk hl
        obtain ⟨k, rfl⟩ := Nat.exists_eq_succ_of_ne_zero (Nat.ne_of_gt hk)
        rw [List.take_succ_cons, ← stepAll_runAll]
        exact cfgsOf_dead hg' hc _ _
    | cons y ys =>
      have he : ∀ b, a.exec (y :: ys) (n + 1) b r = a.exec (cfgsOf (stepAll c.toNat ps)) (n + 1) b r := by
        intro b; rw [hc]
      have hl : n + liveLen ps (c :: r) = n + 1 + liveLen (stepAll c.toNat ps) r := by
        simp only [liveLen, hc, reduceCtorEq, if_false]; omega
      obtain ⟨hn, hs⟩ := all_accepting hg'
      rw [hc] at hn hs
      simp only [ATN.exec, hr, hc, he, hl]
      have hshift : ∀ k, firstAcc 1 (runAll ((c :: r).take (k + 1)) ps) =
          firstAcc 1 (runAll (r.take k) (stepAll c.toNat ps)) := by
        intro k; rw [List.take_succ_cons, ← stepAll_runAll]
      cases hf : firstAcc 1 (stepAll c.toNat ps) with
      | none =>
        rw [hn hf]
        obtain ⟨best', e, h⟩ := ih (stepAll c.toNat ps) (n + 1) best hg'
        refine ⟨best', e, ?_⟩
        rcases h with ⟨hb, h⟩ | ⟨k, x, i, hk, hkl, hb, hi, ht, hsk, h⟩
        · refine Or.inl ⟨hb, ?_⟩
          intro k hk hl
          obtain ⟨k, rfl⟩ := Nat.exists_eq_succ_of_ne_zero (Nat.ne_of_gt hk)
          rw [hshift]
          cases k with
          | zero => rw [List.take_zero, runAll_nil]; exact hf
          | succ k => exact h (k + 1) (by omega) (by simpa using hl)
        · refine Or.inr ⟨k + 1, x, i, by omega, by simpa using hkl, ?_, ?_, ht, hsk, ?_⟩
          · rw [hb, Nat.add_right_comm, Nat.add_assoc]
          · rw [hshift]; exact hi
          · intro k' hk' hl'
            obtain ⟨k', rfl⟩ := Nat.exists_eq_succ_of_ne_zero (show k' ≠ 0 by omega)
            rw [hshift]
            exact h k' (by omega) (by simpa using hl')
      | some i =>
        obtain ⟨x, hx, ht, hsk⟩ := hs i hf
        rw [hx]
        obtain ⟨best', e, h⟩ := ih (stepAll c.toNat ps) (n + 1) (some (n + 1, x)) hg'
        refine ⟨best', e, Or.inr ?_⟩
        rcases h with ⟨hb, h⟩ | ⟨k, x', i', hk, hkl, hb, hi, ht', hsk', h⟩
        · refine ⟨1, x, i, by omega, by simp, hb, ?_, ht, hsk, ?_⟩
          · rw [hshift 0, List.take_zero, runAll_nil]; exact hf
          · intro k' hk' hl'
            obtain ⟨k', rfl⟩ := Nat.exists_eq_succ_of_ne_zero (show k' ≠ 0 by omega)
            rw [hshift]
            exact h k' (by omega) (by simpa using hl')
        · refine ⟨k + 1, x', i', by omega, by simpa using hkl, ?_, ?_, ht', hsk', ?_⟩
          · rw [hb, Nat.add_right_comm, Nat.add_assoc]
          · rw [hshift]; exact hi
          · intro k' hk' hl'
            obtain ⟨k', rfl⟩ := Nat.exists_eq_succ_of_ne_zero (show k' ≠ 0 by omega)
            rw [hshift]
            exact h k' (by omega) (by simpa using hl')

end BoolParser
