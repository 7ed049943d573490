import Verif.Lemmas.Functions2
import Verif.Lemmas.Checker
import Verif.Props.Conditions
/-!
# Functions

C26, C27, C28, C29, C30, C31, C32, C33, C34.

`s` is a text that writes a function call; `ws` are the items the function gets: the values of its arguments,
collections replaced by their elements.
-/

namespace BoolParser
open Spec

/-- The items of a call whose only argument is a field holding a list. -/
theorem items_list (env : Env) (ws : List Value) : Items env [(['a'], .list ws)] [.field ['a']] ws :=
  ⟨[.list ws], rfl, by simp [elements]⟩

/-! ## C26 MIN and MAX -/

/-- **C26**, MIN with a decimal among the items: the least number. -/
theorem C26_min {args : List Arith} {s : JStr} (h : WritesArith s (.call .min args)) {env : Env} {d : Data}
    {ws : List Value} (hi : Items env d args ws) {xs : List ℚ} (hn : Numbers ws xs) (h2 : 2 ≤ ws.length)
    (hd : HasDecimal ws) :
    ∃ r x, evaluateArith env s d = .ofResult r ∧ Returns r x ∧ Least x xs := by
  obtain ⟨x, h3, h4⟩ := minFn_decimal hn hd
  exact ⟨_, x, list_text rfl h hi hn h2, h4, h3⟩

/-- **C26**, MAX with a decimal among the items: the greatest number. -/
theorem C26_max {args : List Arith} {s : JStr} (h : WritesArith s (.call .max args)) {env : Env} {d : Data}
    {ws : List Value} (hi : Items env d args ws) {xs : List ℚ} (hn : Numbers ws xs) (h2 : 2 ≤ ws.length)
    (hd : HasDecimal ws) :
    ∃ r x, evaluateArith env s d = .ofResult r ∧ Returns r x ∧ Greatest x xs := by
  obtain ⟨x, h3, h4⟩ := maxFn_decimal hn hd
  exact ⟨_, x, list_text rfl h hi hn h2, h4, h3⟩

theorem wholes_ne {ws : List Value} {ns : List ℤ} (h : Wholes ws ns) (h2 : 2 ≤ ws.length) : ns ≠ [] := by
  rintro rfl; cases h; simp at h2

/-- **C26**, MIN of whole numbers: the least one, if it is at most 2^53 in magnitude. -/
theorem C26_min_whole {args : List Arith} {s : JStr} (h : WritesArith s (.call .min args)) {env : Env} {d : Data}
    {ws : List Value} (hi : Items env d args ws) {ns : List ℤ} (hn : Wholes ws ns) (h2 : 2 ≤ ws.length) :
    ∃ n, Least n ns ∧ (|n| ≤ 2 ^ 53 → ReturnsWhole (evaluateArith env s d) n) := by
  obtain ⟨n, h3, h4⟩ := minFn_whole hn (wholes_ne hn h2)
  refine ⟨n, h3, fun hb => ?_⟩
  rw [list_text rfl h hi (wholes_numbers hn) h2]
  show ReturnsWhole (.ofResult (minFn (typed ws))) n
  rw [h4, longToDouble_small hb]
  exact castWhole_returns n

/-- **C26**, MAX of whole numbers. -/
theorem C26_max_whole {args : List Arith} {s : JStr} (h : WritesArith s (.call .max args)) {env : Env} {d : Data}
    {ws : List Value} (hi : Items env d args ws) {ns : List ℤ} (hn : Wholes ws ns) (h2 : 2 ≤ ws.length) :
    ∃ n, Greatest n ns ∧ (|n| ≤ 2 ^ 53 → ReturnsWhole (evaluateArith env s d) n) := by
  obtain ⟨n, h3, h4⟩ := maxFn_whole hn (wholes_ne hn h2)
  refine ⟨n, h3, fun hb => ?_⟩
  rw [list_text rfl h hi (wholes_numbers hn) h2]
  show ReturnsWhole (.ofResult (maxFn (typed ws))) n
  rw [h4, longToDouble_small hb]
  exact castWhole_returns n

/-- Rearranging the items rearranges the numbers. -/
theorem numbers_perm {ws ws' : List Value} {xs xs' : List ℚ} (h : Numbers ws xs) (h' : Numbers ws' xs')
    (hp : ws.Perm ws') : xs.Perm xs' := by
  have hu : ∀ {w x y}, Num w x → Num w y → x = y := by
    intro w x y hx hy
    obtain ⟨a, ha, rfl⟩ := num_asDec hx
    obtain ⟨b, hb, rfl⟩ := num_asDec hy
    rw [ha] at hb; injection hb with hb; injection hb with hb; rw [hb]
  have key : ∀ {ws ws' : List Value} (_ : ws.Perm ws'), ∀ {xs}, Numbers ws xs → ∃ ys, Numbers ws' ys ∧ xs.Perm ys := by
    intro ws ws' hp
    induction hp with
    | nil => intro xs h; cases h; exact ⟨[], .nil, .nil⟩
    | cons w _ ih =>
      intro xs h
      cases h with
      | cons h1 h2 => obtain ⟨ys, h3, h4⟩ := ih h2; exact ⟨_, .cons h1 h3, h4.cons _⟩
    | swap a b l =>
      intro xs h
      cases h with
      | cons h1 h2 => cases h2 with
        | cons h3 h4 => exact ⟨_, .cons h3 (.cons h1 h4), .swap _ _ _⟩
    | trans _ _ ih1 ih2 =>
      intro xs h
      obtain ⟨ys, h1, h2⟩ := ih1 h
      obtain ⟨zs, h3, h4⟩ := ih2 h1
      exact ⟨zs, h3, h2.trans h4⟩
  obtain ⟨ys, h1, h2⟩ := key hp h
  have he : ys = xs' := by
    clear h2 h hp
    induction h1 generalizing xs' with
    | nil => cases h'; rfl
    | cons h3 _ ih =>
      cases h' with
      | cons h5 h6 => rw [hu h3 h5, ih h6]
  rwa [he] at h2

theorem wholes_perm {ws ws' : List Value} {ns ns' : List ℤ} (h : Wholes ws ns) (h' : Wholes ws' ns')
    (hp : ws.Perm ws') : ns.Perm ns' := by
  have := numbers_perm (wholes_numbers h) (wholes_numbers h') hp
  exact (List.map_perm_map_iff (f := fun n : ℤ => (n : ℚ)) (fun a b hab => Int.cast_injective (α := ℚ) hab)).mp this

theorem hasDecimal_perm {ws ws' : List Value} (hp : ws.Perm ws') (h : HasDecimal ws) : HasDecimal ws' := by
  obtain ⟨w, hw, hd⟩ := h
  exact ⟨w, hp.mem_iff.mp hw, hd⟩

/-- The two results are the same number (possibly written with different scales), or the same failure. -/
def SameNumber (a b : Outcome Value) : Prop := a = b ∨ ∃ d e, a = .success (.dec d) ∧ b = .success (.dec e) ∧ decVal d = decVal e

theorem returns_same {r r' : Result Value} {x : ℚ} (h : Returns r x) (h' : Returns r' x) :
    SameNumber (.ofResult r) (.ofResult r') := by
  by_cases hx : ∃ n : ℤ, x = n
  · obtain ⟨n, hn⟩ := hx
    by_cases h32 : InInt32 n
    · left; rw [h.1 n hn h32, h'.1 n hn h32]
    · left; rw [h.2.1 n hn h32, h'.2.1 n hn h32]
  · right
    obtain ⟨d, h1, h2⟩ := h.2.2 (fun n hn => hx ⟨n, hn⟩)
    obtain ⟨e, h3, h4⟩ := h'.2.2 (fun n hn => hx ⟨n, hn⟩)
    exact ⟨d, e, by rw [h1]; rfl, by rw [h3]; rfl, by rw [h2, h4]⟩

/-- **C26**, the order of the items does not matter (for Longs of any size). -/
theorem C26_order {f : FuncType} (hf : f = .min ∨ f = .max) {args args' : List Arith} {s s' : JStr}
    (h : WritesArith s (.call f args)) (h' : WritesArith s' (.call f args')) {env : Env} {d : Data}
    {ws ws' : List Value} (hi : Items env d args ws) (hi' : Items env d args' ws') (hp : ws.Perm ws') {xs : List ℚ}
    (hn : Numbers ws xs) (h2 : 2 ≤ ws.length) :
    SameNumber (evaluateArith env s d) (evaluateArith env s' d) := by
  have h2' : 2 ≤ ws'.length := by rw [← hp.length_eq]; exact h2
  obtain ⟨xs', hn'⟩ : ∃ xs', Numbers ws' xs' := by
    have : ∀ w ∈ ws', ∃ x, Num w x := fun w hw => numbers_mem hn (hp.mem_iff.mpr hw)
    clear hi' hp h2'
    induction ws' with
    | nil => exact ⟨[], .nil⟩
    | cons w ws' ih =>
      obtain ⟨x, hx⟩ := this w (by simp)
      obtain ⟨xs', h3⟩ := ih (fun v hv => this v (by simp [hv]))
      exact ⟨x :: xs', .cons hx h3⟩
  have hpx := numbers_perm hn hn' hp
  have hl : f.isList = true := by rcases hf with rfl | rfl <;> rfl
  rw [list_text hl h hi hn h2, list_text hl h' hi' hn' h2']
  by_cases hd : HasDecimal ws
  · have hd' := hasDecimal_perm hp hd
    rcases hf with rfl | rfl
    · obtain ⟨x, h3, h4⟩ := minFn_decimal hn hd
      obtain ⟨y, h5, h6⟩ := minFn_decimal hn' hd'
      have := least_unique h3 h5 hpx
      subst this
      exact returns_same h4 h6
    · obtain ⟨x, h3, h4⟩ := maxFn_decimal hn hd
      obtain ⟨y, h5, h6⟩ := maxFn_decimal hn' hd'
      have := greatest_unique h3 h5 hpx
      subst this
      exact returns_same h4 h6
  · have hd' : ¬ HasDecimal ws' := fun hc => hd (hasDecimal_perm hp.symm hc)
    obtain ⟨ns, _, hw⟩ := numbers_wholes hn hd
    obtain ⟨ns', _, hw'⟩ := numbers_wholes hn' hd'
    have hpn := wholes_perm hw hw' hp
    left
    rcases hf with rfl | rfl
    · obtain ⟨x, h3, h4⟩ := minFn_whole hw (wholes_ne hw h2)
      obtain ⟨y, h5, h6⟩ := minFn_whole hw' (wholes_ne hw' h2')
      have := least_unique h3 h5 hpn
      subst this
      show Outcome.ofResult (minFn (typed ws)) = .ofResult (minFn (typed ws'))
      rw [h4, h6]
    · obtain ⟨x, h3, h4⟩ := maxFn_whole hw (wholes_ne hw h2)
      obtain ⟨y, h5, h6⟩ := maxFn_whole hw' (wholes_ne hw' h2')
      have := greatest_unique h3 h5 hpn
      subst this
      show Outcome.ofResult (maxFn (typed ws)) = .ofResult (maxFn (typed ws'))
      rw [h4, h6]

/-- Beyond 2^53 MAX returns a number that is none of the items. -/
theorem C26_imprecise (env : Env) :
    evaluateArith env j!"max(a, b)" [(['a'], .long 9007199254740993), (['b'], .long 1)] =
      .success (.dec ⟨9007199254740992, 0⟩) := by krfl

example (env : Env) (m n k : ℤ) (hm : InInt32 m) (hn : InInt32 n) (hk : InInt32 k) :
    ∃ x, Least x [m, n, k] ∧ (|x| ≤ 2 ^ 53 →
      ReturnsWhole (evaluateArith env j!"min(a)" [(['a'], .list [.int m, .int n, .int k])]) x) :=
  C26_min_whole (args := [.field ['a']]) (writesArith_of (by krfl)) (items_list env _)
    (.cons (.int hm) (.cons (.int hn) (.cons (.int hk) .nil))) (by simp)

example (env : Env) (x y : Dec) : ∃ r z, evaluateArith env j!"max(a)" [(['a'], .list [.dec x, .int 7, .dec y])] =
    .ofResult r ∧ Returns r z ∧ Greatest z [decVal x, 7, decVal y] :=
  C26_max (args := [.field ['a']]) (writesArith_of (by krfl)) (items_list env _)
    (.cons (.dec x) (.cons (by exact_mod_cast Num.int (n := 7) (by decide)) (.cons (.dec y) .nil))) (by simp)
    ⟨.dec x, by simp, rfl⟩

/-! ## C27 SUM -/

/-- **C27** with a decimal among the items: the exact sum. -/
theorem C27_sum {args : List Arith} {s : JStr} (h : WritesArith s (.call .sum args)) {env : Env} {d : Data}
    {ws : List Value} (hi : Items env d args ws) {xs : List ℚ} (hn : Numbers ws xs) (h2 : 2 ≤ ws.length)
    (hd : HasDecimal ws) : ∃ r, evaluateArith env s d = .ofResult r ∧ Returns r xs.sum := by
  obtain ⟨ds, h1, rfl⟩ := map_decs hn
  refine ⟨_, list_text rfl h hi hn h2, ?_⟩
  show Returns (sumFn (typed ws)) _
  unfold sumFn
  rw [if_pos ((anyType_decimal hn).mpr hd), h1, ok_bind, ← decSum_val]
  exact castDecimal_returns _

/-- **C27** for whole numbers: the exact sum if it is at most 2^53 in magnitude. -/
theorem C27_sum_whole {args : List Arith} {s : JStr} (h : WritesArith s (.call .sum args)) {env : Env} {d : Data}
    {ws : List Value} (hi : Items env d args ws) {ns : List ℤ} (hn : Wholes ws ns) (h2 : 2 ≤ ws.length)
    (hb : |ns.sum| ≤ 2 ^ 53) : ReturnsWhole (evaluateArith env s d) ns.sum := by
  rw [list_text rfl h hi (wholes_numbers hn) h2]
  show ReturnsWhole (.ofResult (sumFn (typed ws))) _
  unfold sumFn
  rw [if_neg (by rw [wholes_anyType hn]; simp), map_longs hn, ok_bind, longSum_eq, wrap64_of_in, longToDouble_small hb]
  · exact castWhole_returns _
  · have := abs_le.mp hb
    unfold InInt64; norm_num at this ⊢; omega

/-- **C27**, the order of the items does not matter: the very same result. -/
theorem C27_order {args args' : List Arith} {s s' : JStr} (h : WritesArith s (.call .sum args))
    (h' : WritesArith s' (.call .sum args')) {env : Env} {d : Data} {ws ws' : List Value} (hi : Items env d args ws)
    (hi' : Items env d args' ws') (hp : ws.Perm ws') {xs xs' : List ℚ} (hn : Numbers ws xs) (hn' : Numbers ws' xs')
    (h2 : 2 ≤ ws.length) : evaluateArith env s d = evaluateArith env s' d := by
  have h2' : 2 ≤ ws'.length := by rw [← hp.length_eq]; exact h2
  rw [list_text rfl h hi hn h2, list_text rfl h' hi' hn' h2']
  show Outcome.ofResult (sumFn (typed ws)) = .ofResult (sumFn (typed ws'))
  congr 1
  unfold sumFn
  by_cases hd : HasDecimal ws
  · have hd' := hasDecimal_perm hp hd
    rw [if_pos ((anyType_decimal hn).mpr hd), if_pos ((anyType_decimal hn').mpr hd')]
    have key : ∀ {ws ws' : List Value}, ws.Perm ws' → ∀ {ds}, mapGetOpt asDec (typed ws) = .ok ds →
        ∃ ds', mapGetOpt asDec (typed ws') = .ok ds' ∧ ds.Perm ds' := by
      intro ws ws' hp
      induction hp with
      | nil => intro ds h; exact ⟨ds, h, .refl _⟩
      | cons w _ ih =>
        intro ds h
        change mapGetOpt asDec ((w, getDataType w) :: typed _) = _ at h
        rw [mapGetOpt_cons] at h
        cases ha : getOpt (asDec w) with
        | error e => simp only [ha] at h; cases h
        | ok a =>
          simp only [ha, ok_bind] at h
          rename_i l1 l2 _
          cases hb : mapGetOpt asDec (typed l1) with
          | error e => rw [hb] at h; cases h
          | ok b =>
            rw [hb] at h
            injection h with h
            obtain ⟨b', h3, h4⟩ := ih hb
            refine ⟨a :: b', ?_, by rw [← h]; exact h4.cons a⟩
            change mapGetOpt asDec ((w, getDataType w) :: typed _) = _
            rw [mapGetOpt_cons]
            simp only [ha, ok_bind, h3]; rfl
      | swap a b l =>
        intro ds h
        change mapGetOpt asDec ((b, getDataType b) :: (a, getDataType a) :: typed l) = _ at h
        change ∃ ds', mapGetOpt asDec ((a, getDataType a) :: (b, getDataType b) :: typed l) = _ ∧ _
        rw [mapGetOpt_cons, mapGetOpt_cons] at h ⊢
        cases ha : getOpt (asDec a) <;> cases hb : getOpt (asDec b) <;> cases hc : mapGetOpt asDec (typed l) <;>
          simp only [ha, hb, hc, ok_bind] at h ⊢ <;> try cases h
        exact ⟨_, rfl, .swap _ _ _⟩
      | trans _ _ ih1 ih2 =>
        intro ds h
        obtain ⟨e, h1, h2⟩ := ih1 h
        obtain ⟨f, h3, h4⟩ := ih2 h1
        exact ⟨f, h3, h2.trans h4⟩
    obtain ⟨ds, h3, _⟩ := map_decs hn
    obtain ⟨ds', h4, h5⟩ := key hp h3
    rw [h3, h4, ok_bind, ok_bind, decSum_perm h5]
  · have hd' : ¬ HasDecimal ws' := fun hc => hd (hasDecimal_perm hp.symm hc)
    obtain ⟨ns, _, hw⟩ := numbers_wholes hn hd
    obtain ⟨ns', _, hw'⟩ := numbers_wholes hn' hd'
    rw [if_neg (by rw [wholes_anyType hw]; simp), if_neg (by rw [wholes_anyType hw']; simp), map_longs hw,
      map_longs hw', ok_bind, ok_bind, longSum_eq, longSum_eq, (wholes_perm hw hw' hp).sum_eq]

example (env : Env) (m n : ℤ) (hm : InInt32 m) (hn : InInt32 n) :
    ReturnsWhole (evaluateArith env j!"sum(a)" [(['a'], .list [.int m, .int n])]) (m + n) := by
  have := C27_sum_whole (args := [.field ['a']]) (s := j!"sum(a)") (writesArith_of (by krfl))
    (items_list env [.int m, .int n]) (.cons (.int hm) (.cons (.int hn) .nil)) (by simp)
    (by unfold InInt32 at hm hn; simp; rw [abs_le]; constructor <;> omega)
  simpa using this

example (env : Env) (x y : Dec) : ∃ r, evaluateArith env j!"sum(a)" [(['a'], .list [.dec x, .dec y])] = .ofResult r ∧
    Returns r (decVal x + decVal y) := by
  have := C27_sum (args := [.field ['a']]) (s := j!"sum(a)") (writesArith_of (by krfl))
    (items_list env [.dec x, .dec y]) (.cons (.dec x) (.cons (.dec y) .nil)) (by simp) ⟨.dec x, by simp, rfl⟩
  simpa using this

/-! ## C28 AVG and MEAN -/

/-- **C28**, AVG and MEAN agree on all arguments, failures included. -/
theorem C28_mean {args : List Arith} {s s' : JStr} (h : WritesArith s (.call .avg args))
    (h' : WritesArith s' (.call .mean args)) (env : Env) (d : Data) :
    evaluateArith env s d = evaluateArith env s' d := by
  rw [h.eval env d, h'.eval env d, Arith.value, Arith.value]; rfl

/-- **C28** with a decimal among the items: sum/n truncated to three decimals. -/
theorem C28_avg {args : List Arith} {s : JStr} (h : WritesArith s (.call .avg args)) {env : Env} {d : Data}
    {ws : List Value} (hi : Items env d args ws) {xs : List ℚ} (hn : Numbers ws xs) (h2 : 2 ≤ ws.length)
    (hd : HasDecimal ws) :
    ∃ r, evaluateArith env s d = .ofResult r ∧ Returns r ((truncate (xs.sum / xs.length * 1000) : ℚ) / 1000) :=
  ⟨_, list_text rfl h hi hn h2, avgFn_decimal hn hd⟩

/-- **C28** for whole numbers: exactly sum/n if that has at most two decimals, a failure otherwise. -/
theorem C28_avg_whole {args : List Arith} {s : JStr} (h : WritesArith s (.call .avg args)) {env : Env} {d : Data}
    {ws : List Value} (hi : Items env d args ws) {ns : List ℤ} (hn : Wholes ws ns) (h2 : 2 ≤ ws.length)
    (hin : InInt64 ns.sum) :
    ((∃ k : ℤ, (ns.sum : ℚ) / ns.length * 100 = k) →
      ∃ r, evaluateArith env s d = .ofResult r ∧ Returns r ((ns.sum : ℚ) / ns.length)) ∧
    ((∀ k : ℤ, (ns.sum : ℚ) / ns.length * 100 ≠ k) → evaluateArith env s d = .failure .arithmetic) := by
  obtain ⟨h3, h4⟩ := avgFn_whole hn (wholes_ne hn h2) hin
  rw [list_text rfl h hi (wholes_numbers hn) h2]
  refine ⟨fun hk => ⟨_, rfl, h3 hk⟩, fun hk => ?_⟩
  show Outcome.ofResult (avgFn (typed ws)) = _
  rw [h4 hk]; rfl

example (env : Env) (d : Data) : evaluateArith env j!"avg(1, 2, 2)" d = .failure .arithmetic ∧
    evaluateArith env j!"mean(1, 2)" d = .success (.dec ⟨150, 2⟩) ∧
    evaluateArith env j!"avg(1.0, 2, 2)" d = .success (.dec ⟨1666, 3⟩) := ⟨by krfl, by krfl, by krfl⟩

example (env : Env) (m n : ℤ) (hm : InInt32 m) (hn : InInt32 n) : ∃ r,
    evaluateArith env j!"avg(a)" [(['a'], .list [.int m, .int n])] = .ofResult r ∧ Returns r ((m + n : ℚ) / 2) := by
  have := (C28_avg_whole (args := [.field ['a']]) (s := j!"avg(a)") (writesArith_of (by krfl))
    (items_list env [.int m, .int n]) (.cons (.int hm) (.cons (.int hn) .nil)) (by simp)
    (by unfold InInt32 at hm hn; unfold InInt64; simp; omega)).1 ⟨(m + n) * 50, by simp; ring⟩
  simpa using this

/-! ## C29 MEDIAN -/

/-- **C29**, an odd number of items: the middle one of the sorted list. -/
theorem C29_odd {args : List Arith} {s : JStr} (h : WritesArith s (.call .median args)) {env : Env} {d : Data}
    {ws : List Value} (hi : Items env d args ws) {xs ys : List ℚ} (hn : Numbers ws xs) (h2 : 2 ≤ ws.length)
    (hp : ys.Perm xs) (hs : ys.Pairwise (· ≤ ·)) {k : ℕ} (hk : xs.length = 2 * k + 1) :
    ∃ r y, ys[k]? = some y ∧ evaluateArith env s d = .ofResult r ∧ Returns r y := by
  have hlen : k < ys.length := by rw [hp.length_eq]; omega
  have hdiv : xs.length / 2 = k := by omega
  refine ⟨_, ys[k], List.getElem?_eq_getElem hlen, list_text rfl h hi hn h2, ?_⟩
  exact medianFn_odd hn hp hs (by omega) (by rw [hdiv]; exact List.getElem?_eq_getElem hlen)

/-- **C29**, an even number of items: the mean of the two middle ones, truncated to two decimals. -/
theorem C29_even {args : List Arith} {s : JStr} (h : WritesArith s (.call .median args)) {env : Env} {d : Data}
    {ws : List Value} (hi : Items env d args ws) {xs ys : List ℚ} (hn : Numbers ws xs) (h2 : 2 ≤ ws.length)
    (hp : ys.Perm xs) (hs : ys.Pairwise (· ≤ ·)) {k : ℕ} (hk : xs.length = 2 * (k + 1)) :
    ∃ r x y, ys[k]? = some x ∧ ys[k + 1]? = some y ∧ evaluateArith env s d = .ofResult r ∧
      Returns r ((truncate ((x + y) / 2 * 100) : ℚ) / 100) := by
  have hlen : k + 1 < ys.length := by rw [hp.length_eq]; omega
  have hdiv : xs.length / 2 = k + 1 := by omega
  refine ⟨_, ys[k], ys[k + 1], List.getElem?_eq_getElem _, List.getElem?_eq_getElem hlen,
    list_text rfl h hi hn h2, ?_⟩
  exact medianFn_even hn hp hs (by omega) (by rw [hdiv]; exact List.getElem?_eq_getElem _)
    (by rw [hdiv]; exact List.getElem?_eq_getElem hlen)

/-- **C29**, the order of the items does not matter. -/
theorem C29_order {args args' : List Arith} {s s' : JStr} (h : WritesArith s (.call .median args))
    (h' : WritesArith s' (.call .median args')) {env : Env} {d : Data} {ws ws' : List Value}
    (hi : Items env d args ws) (hi' : Items env d args' ws') (hp : ws.Perm ws') {xs xs' : List ℚ}
    (hn : Numbers ws xs) (hn' : Numbers ws' xs') (h2 : 2 ≤ ws.length) :
    SameNumber (evaluateArith env s d) (evaluateArith env s' d) := by
  have h2' : 2 ≤ ws'.length := by rw [← hp.length_eq]; exact h2
  have hpx := numbers_perm hn hn' hp
  have hlen := numbers_length hn
  have hs : (xs.mergeSort (fun a b => decide (a ≤ b))).Pairwise (· ≤ ·) := by
    have := List.pairwise_mergeSort (le := fun a b : ℚ => decide (a ≤ b))
      (by intro a b c; simp; exact le_trans) (by intro a b; simp; exact le_total a b) xs
    simpa using this
  have hpm : (xs.mergeSort (fun a b => decide (a ≤ b))).Perm xs := List.mergeSort_perm _ _
  have hlx := hpx.length_eq
  rcases Nat.even_or_odd' xs.length with ⟨k, hk | hk⟩
  · obtain ⟨j, rfl⟩ : ∃ j, k = j + 1 := ⟨k - 1, by omega⟩
    obtain ⟨r, x, y, e1, e2, e3, e4⟩ := C29_even h hi hn h2 hpm hs hk
    obtain ⟨r', x', y', e1', e2', e3', e4'⟩ := C29_even h' hi' hn' h2' (hpm.trans hpx) hs (hlx ▸ hk)
    rw [e1] at e1'; injection e1' with e1'
    rw [e2] at e2'; injection e2' with e2'
    subst e1'; subst e2'
    rw [e3, e3']
    exact returns_same e4 e4'
  · obtain ⟨r, x, e1, e3, e4⟩ := C29_odd h hi hn h2 hpm hs hk
    obtain ⟨r', x', e1', e3', e4'⟩ := C29_odd h' hi' hn' h2' (hpm.trans hpx) hs (hlx ▸ hk)
    rw [e1] at e1'; injection e1' with e1'
    subst e1'
    rw [e3, e3']
    exact returns_same e4 e4'

example (env : Env) (d : Data) : evaluateArith env j!"median(5, 1, 2)" d = .success (.int 2) ∧
    evaluateArith env j!"median(5, 1.115, 2, 0)" d = .success (.dec ⟨155, 2⟩) := ⟨by krfl, by krfl⟩

example (env : Env) (d : Data) : ∃ r y, [(1 : ℚ), 2, 5][1]? = some y ∧
    evaluateArith env j!"median(5, 1, 2)" d = .ofResult r ∧ Returns r y :=
  C29_odd (args := [.lit (.int ['5']), .lit (.int ['1']), .lit (.int ['2'])]) (writesArith_of (by krfl))
    (ws := [.int 5, .int 1, .int 2]) ⟨_, by rfl, rfl⟩ (xs := [5, 1, 2])
    (.cons (by exact_mod_cast Num.int (n := 5) (by decide)) (.cons (by exact_mod_cast Num.int (n := 1) (by decide))
      (.cons (by exact_mod_cast Num.int (n := 2) (by decide)) .nil))) (by simp)
    (List.perm_append_comm (l₁ := [1, 2]) (l₂ := [5]))
    (by simp; norm_num) (k := 1) rfl

/-! ## C30 MODE -/

/-- How MODE returns an item: a `BigDecimal` like the other functions, a `Long` as an `Integer` if it fits 32 bits,
anything else as it is. -/
def ReturnsItem (r : Outcome Value) : Value → Prop
  | .dec d => ∃ q, r = .ofResult q ∧ Returns q (decVal d)
  | .long n => r = .success (wholeValue n)
  | w => r = .success w

/-- **C30.** MODE returns one of the items, and none occurs more often; of several such items it is the one that
first reaches that number of occurrences, counting from the left. -/
theorem C30_mode {args : List Arith} {s : JStr} (h : WritesArith s (.call .mode args)) {env : Env} {d : Data}
    {ws : List Value} (hi : Items env d args ws) {xs : List ℚ} (hn : Numbers ws xs) (h2 : 2 ≤ ws.length) :
    ∃ w ∈ ws, FirstMostFrequent w ws ∧ ReturnsItem (evaluateArith env s d) w := by
  rw [list_text rfl h hi hn h2]
  cases ws with
  | nil => simp at h2
  | cons w ws =>
    have hnum : ∀ v ∈ w :: ws, IsNumber v = true := fun v hv => by
      obtain ⟨x, hx⟩ := numbers_mem hn hv; exact num_isNumber hx
    have hmem : modeGo (w :: ws) [] 1 w ∈ w :: ws := by
      have := modeGo_mem (w :: ws) [] 1 w
      rcases this with h | h
      · rw [h]; simp
      · exact h
    refine ⟨modeGo (w :: ws) [] 1 w, hmem, mode_spec hnum, ?_⟩
    show ReturnsItem (.ofResult (modeFn (typed (w :: ws)))) _
    have e : modeFn (typed (w :: ws)) = (match modeGo (w :: ws) [] 1 w with
      | .dec d => castDecimal d
      | .long n => .ok (castLong n)
      | v => .ok v) := by
      show (match modeGo ((typed (w :: ws)).map Prod.fst) [] 1 w with
        | .dec d => castDecimal d
        | .long n => .ok (castLong n)
        | v => .ok v) = _
      have : (typed (w :: ws)).map Prod.fst = w :: ws := by simp [typed, Function.comp_def]
      rw [this]
    rw [e]
    cases modeGo (w :: ws) [] 1 w <;> first | rfl | exact ⟨_, rfl, castDecimal_returns _⟩

example (env : Env) (d : Data) : evaluateArith env j!"mode(5, 1, 2, 1)" d = .success (.int 1) := by krfl

example (env : Env) (ws : List Value) (xs : List ℚ) (hn : Numbers ws xs) (h2 : 2 ≤ ws.length) :
    ∃ w ∈ ws, FirstMostFrequent w ws ∧
      ReturnsItem (evaluateArith env j!"mode(a)" [(['a'], .list ws)]) w :=
  C30_mode (args := [.field ['a']]) (writesArith_of (by krfl)) (items_list env ws) hn h2

/-- **C30**, this determines the item. -/
theorem C30_unique {v w : Value} {ws : List Value} (hv : FirstMostFrequent v ws) (hw : FirstMostFrequent w ws) :
    v = w := first_unique hv hw

example (env : Env) (d : Data) : evaluateArith env j!"mode(1, 2, 2, 1)" d = .success (.int 2) ∧
    evaluateArith env j!"mode(3, 1, 2)" d = .success (.int 3) := ⟨by krfl, by krfl⟩

/-! ## C31 LEN -/

/-- **C31**, texts: the number of UTF-16 units. -/
theorem C31_text {args : List Arith} {s : JStr} (h : WritesArith s (.call .len args)) {env : Env} {d : Data}
    {t : JStr} (hi : Items env d args [.str t]) : evaluateArith env s d = .success (.int (utf16 t).length) := by
  rw [call_text h hi, callFn_one env rfl (show FuncType.len.allows _ = true from rfl)
    (notNaN_valid (v := .str t) (by simp) trivial)]; rfl

theorem callLen_list (env : Env) {ws : List Value} (h2 : 2 ≤ ws.length) (hv : ∀ w ∈ ws, w ≠ .null ∧ NotNaN w) :
    callFn env .len (typed ws) = .ok (.int ws.length) := by
  rw [callFn_eq, validateItems_ok (fun w hw => notNaN_valid (hv w hw).1 (hv w hw).2), typed_length,
    if_pos (show 1 < ws.length by omega)]
  have hall : ((typed ws).all (fun x => FuncType.len.allows x.2)) = true := by
    rw [List.all_eq_true]; intro x _; cases x.2 <;> rfl
  have hne : (typed ws).isEmpty = false := by
    cases ws with
    | nil => simp at h2
    | cons w ws => rfl
  rw [hall, hne]
  match ws, h2 with
  | a :: b :: ws, _ =>
    show lenFn (typed (a :: b :: ws)) = _
    have : lenFn (typed (a :: b :: ws)) = .ok (.int (typed (a :: b :: ws)).length) := by
      unfold lenFn
      split
      · rename_i heq; simp [typed] at heq
      · rfl
    rw [this, typed_length]

/-- **C31**, lists: the number of elements, from two on. -/
theorem C31_list {args : List Arith} {s : JStr} (h : WritesArith s (.call .len args)) {env : Env} {d : Data}
    {ws : List Value} (hi : Items env d args ws) (h2 : 2 ≤ ws.length) (hv : ∀ w ∈ ws, w ≠ .null ∧ NotNaN w) :
    evaluateArith env s d = .success (.int ws.length) := by
  rw [call_text h hi, callLen_list env h2 hv]; rfl

/-- **C31**, the exceptions: an empty list fails, a list of one text counts its characters. -/
theorem C31_short (env : Env) (t : JStr) :
    evaluateArith env j!"len(a)" [(['a'], .list [])] = .failure .invalidExpression ∧
    evaluateArith env j!"len(a)" [(['a'], .list [.str t])] = .success (.int (utf16 t).length) :=
  ⟨by krfl, C31_text (args := [.field ['a']]) (writesArith_of (by krfl)) (items_list env _)⟩

example (env : Env) (t : JStr) : evaluateArith env j!"len(a)" [(['a'], .str t)] = .success (.int (utf16 t).length) :=
  C31_text (args := [.field ['a']]) (writesArith_of (by krfl)) ⟨[.str t], rfl, rfl⟩

example (env : Env) (b : Bool) (t : JStr) (n : ℤ) :
    evaluateArith env j!"len(a)" [(['a'], .list [.bool b, .str t, .int n])] = .success (.int 3) :=
  C31_list (args := [.field ['a']]) (writesArith_of (by krfl)) (items_list env _) (by simp) (by simp [NotNaN])

/-! ## C32 INT -/

/-- **C32.** INT truncates towards zero. -/
theorem C32_int {args : List Arith} {s : JStr} (h : WritesArith s (.call .int args)) {env : Env} {d : Data}
    {a : Value} (hi : Items env d args [a]) {x : ℚ} (ha : Num a x) (hx : InInt32 (truncate x)) :
    evaluateArith env s d = .success (.int (truncate x)) := by
  rw [call_text h hi, callInt_num env ha hx]; rfl

example (env : Env) (d : Data) : evaluateArith env j!"int(2.9)" d = .success (.int 2) ∧
    evaluateArith env j!"int(a)" [(['a'], .dec ⟨-29, 1⟩)] = .success (.int (-2)) := ⟨by krfl, by krfl⟩

example (env : Env) (x : Dec) (hx : InInt32 (truncate (decVal x))) :
    evaluateArith env j!"int(a)" [(['a'], .dec x)] = .success (.int (truncate (decVal x))) :=
  C32_int (args := [.field ['a']]) (writesArith_of (by krfl)) ⟨[.dec x], rfl, rfl⟩ (.dec x) hx

/-! ## C33 DAYS_ELAPSED -/

theorem isoYear_pad {n : Nat} (h : n < 10000) (r : JStr) :
    parseIsoYear (pad 4 n ++ '-' :: r) = some ((n : ℤ), '-' :: r) := by
  rw [pad4]
  have d1 := digitChar_digit (n / 10 / 10 / 10)
  have d2 := digitChar_digit (n / 10 / 10)
  have d3 := digitChar_digit (n / 10)
  have d4 := digitChar_digit n
  have v1 := digitChar_val (n / 10 / 10 / 10)
  have v2 := digitChar_val (n / 10 / 10)
  have v3 := digitChar_val (n / 10)
  have v4 := digitChar_val n
  generalize digitChar (n / 10 / 10 / 10 % 10) = a at *
  generalize digitChar (n / 10 / 10 % 10) = b at *
  generalize digitChar (n / 10 % 10) = c at *
  generalize digitChar (n % 10) = d at *
  have e : ([a, b, c, d] ++ '-' :: r).takeWhile isDigit = [a, b, c, d] :=
    takeWhile_append (by simp [d1, d2, d3, d4]) (by rfl)
  have hv : natOfDigits 0 [a, b, c, d] = n := by
    simp only [natOfDigits, v1, v2, v3, v4]; omega
  unfold parseIsoYear
  split
  · rename_i heq
    simp only [List.cons_append, List.cons.injEq] at heq
    exact absurd heq.1 (digit_ne d1 (by rfl))
  · rename_i heq
    simp only [List.cons_append, List.cons.injEq] at heq
    exact absurd heq.1 (digit_ne d1 (by rfl))
  · rw [e]
    simp only [List.take_succ_cons, List.take_nil, hv, List.length_cons, List.length_nil]
    rw [if_pos trivial]
    rfl

theorem parseIso_text {d : Date} (h : RealDate d) : parseIsoDate (dateText d) = some d := by
  obtain ⟨h1, h2, h3, h4, h5, h6⟩ := h
  obtain ⟨y, m, dd⟩ := d
  simp only at *
  obtain ⟨n, rfl⟩ : ∃ n : Nat, y = n := ⟨y.toNat, by omega⟩
  have hm := monthLen_le n m
  have e : pad 2 dd = pad 2 dd ++ [] := by simp
  simp only [dateText, Int.toNat_natCast, List.append_assoc, parseIsoDate]
  rw [e, show (j!"-" ++ (pad 2 m ++ (j!"-" ++ (pad 2 dd ++ [])))) = '-' :: (pad 2 m ++ ('-' :: (pad 2 dd ++ []))) from rfl,
    isoYear_pad (by omega)]
  simp only [Option.bind_eq_bind, Option.bind_some, lit, if_true]
  rw [two_pad (by omega)]
  simp only [Option.bind_some, lit, if_true]
  rw [two_pad (by omega)]
  simp only [Option.bind_some]
  rw [if_pos ⟨trivial, h3, h4, h5, h6⟩]

theorem callDays (env : Env) {a : Value} {x : Date} (ha : DateOf a x) :
    callFn env .daysElapsed (typed [a]) = .ok (.long (epochDay env.today - epochDay x)) := by
  have hne : a ≠ .null := by cases ha <;> simp
  have hnan : NotNaN a := by cases ha <;> trivial
  rw [callFn_one env rfl (by rw [dateOf_type ha]; rfl) (notNaN_valid hne hnan)]
  cases ha with
  | obj => rfl
  | @text x hr =>
    show daysFn env [(.str (dateText x), getDataType (.str (dateText x)))] = _
    unfold daysFn
    simp only [parseIso_text hr]

theorem days_text {args : List Arith} {s : JStr} (h : WritesArith s (.call .daysElapsed args)) {env : Env} {d : Data}
    {a : Value} (hi : Items env d args [a]) {x : Date} (ha : DateOf a x) :
    evaluateArith env s d = .success (.long (epochDay env.today - epochDay x)) := by
  rw [call_text h hi, callDays env ha]; rfl

/-- **C33.** If today is `k` days after the date the result is `k`; if the date is `k` days after today it is `-k`.
The date is a `LocalDate` or its ISO text. -/
theorem C33_days {args : List Arith} {s : JStr} (h : WritesArith s (.call .daysElapsed args)) {env : Env} {d : Data}
    {a : Value} (hi : Items env d args [a]) {x : Date} (ha : DateOf a x) (hx : IsDay x) (ht : IsDay env.today) (k : ℕ) :
    (env.today = daysAfter k x → evaluateArith env s d = .success (.long k)) ∧
    (x = daysAfter k env.today → evaluateArith env s d = .success (.long (-k))) := by
  rw [days_text h hi ha]
  constructor
  · intro he
    rw [he, (epochDay_daysAfter k hx).2]
    congr 2; ring
  · intro he
    rw [he, (epochDay_daysAfter k ht).2]
    congr 2; ring

/-- **C33**, one of the two cases of `C33_days` always applies. -/
theorem C33_total {x y : Date} (hx : IsDay x) (hy : IsDay y) : ∃ k, y = daysAfter k x ∨ x = daysAfter k y :=
  days_total hx hy

/-- **C33**, moving the date one day later lowers the result by one. -/
theorem C33_additive {args : List Arith} {s : JStr} (h : WritesArith s (.call .daysElapsed args)) {env : Env}
    {d d' : Data} {x : Date} (hx : IsDay x) {a a' : Value} (hi : Items env d args [a]) (ha : DateOf a x)
    (hi' : Items env d' args [a']) (ha' : DateOf a' (dayAfter x)) :
    ∃ n, evaluateArith env s d = .success (.long n) ∧ evaluateArith env s d' = .success (.long (n - 1)) := by
  refine ⟨_, days_text h hi ha, ?_⟩
  rw [days_text h hi' ha', epochDay_after hx]
  congr 2; ring

theorem realDate_isDay {d : Date} (h : RealDate d) : IsDay d :=
  ⟨h.2.2.1, h.2.2.2.1, h.2.2.2.2.1, by rw [monthDays_eq]; exact h.2.2.2.2.2⟩

example (pl : Int → Int → Dbl) (pd : Dec → Dec → Dbl) (d : Data) :
    evaluateArith ⟨⟨2024, 3, 1⟩, pl, pd⟩ j!"days_elapsed(2024-02-28)" d = .success (.long 2) :=
  (C33_days (args := [.lit (.date ⟨2024, 2, 28⟩)]) (writesArith_of (by krfl)) ⟨_, by rfl, rfl⟩ (.obj ⟨2024, 2, 28⟩)
    (realDate_isDay (by decide)) (realDate_isDay (show RealDate ⟨2024, 3, 1⟩ by decide)) 2).1
      (show (⟨2024, 3, 1⟩ : Date) = _ by decide)

example (pl : Int → Int → Dbl) (pd : Dec → Dec → Dbl) (t x : Date) (ht : RealDate t) (hx : RealDate x) (k : ℕ)
    (hk : x = daysAfter k t) :
    evaluateArith ⟨t, pl, pd⟩ j!"days_elapsed(a)" [(['a'], .str (dateText x))] = .success (.long (-k)) :=
  (C33_days (args := [.field ['a']]) (writesArith_of (by krfl)) ⟨[.str (dateText x)], rfl, rfl⟩ (.text hx)
    (realDate_isDay hx) (realDate_isDay ht) k).2 hk

/-! ## C34 Argument checks -/

/-- Functions of several numbers. -/
def OfMany (f : FuncType) : Prop := f ∈ [FuncType.min, .max, .sum, .avg, .mean, .median, .mode]

theorem callFn_success {env : Env} {f : FuncType} {ws : List Value} {v : Value}
    (h : callFn env f (typed ws) = .ok v) :
    ws ≠ [] ∧ (1 < ws.length → f.allowsMany = true) ∧ (ws.length = 1 → f.allowsOne = true) ∧
      ∀ w ∈ ws, f.allows (getDataType w) = true := by
  rw [callFn_eq, typed_length] at h
  by_cases hne : ((typed ws).isEmpty) = true
  · rw [if_pos hne] at h; cases h
  rw [if_neg hne] at h
  by_cases hc : (!if 1 < ws.length then f.allowsMany else f.allowsOne) = true
  · rw [if_pos hc] at h; cases h
  rw [if_neg hc] at h
  by_cases ha : (!((typed ws).all (fun x => f.allows x.2))) = true
  · rw [if_pos ha] at h; cases h
  rw [Bool.not_eq_true, Bool.not_eq_false', List.all_eq_true] at ha
  refine ⟨?_, ?_, ?_, ?_⟩
  · rintro rfl; exact hne rfl
  · intro h1; rw [if_pos h1] at hc; simpa using hc
  · intro h1; rw [if_neg (by omega)] at hc; simpa using hc
  · intro w hw
    exact ha _ (List.mem_map.mpr ⟨w, hw, rfl⟩)

theorem ofResult_success {r : Result Value} {v : Value} (h : Outcome.ofResult r = .success v) : r = .ok v := by
  cases r with
  | error e => cases h
  | ok w => injection h with h; rw [h]

theorem numeric_isNumber {w : Value} (h : getDataType w = .integer ∨ getDataType w = .long ∨ getDataType w = .decimal) :
    IsNumber w = true := by
  cases w with
  | str s =>
    simp only [getDataType] at h
    split at h
    · simp at h
    · split at h <;> simp at h
  | _ => first | rfl | (simp [getDataType] at h)

/-- **C34**, MIN, MAX, SUM, AVG, MEAN, MEDIAN and MODE succeed only with two or more items, all of them numbers. -/
theorem C34_many {f : FuncType} (hf : OfMany f) {args : List Arith} {s : JStr} (h : WritesArith s (.call f args))
    {env : Env} {d : Data} {ws : List Value} (hi : Items env d args ws) {v : Value}
    (hv : evaluateArith env s d = .success v) : 2 ≤ ws.length ∧ ∀ w ∈ ws, IsNumber w = true := by
  rw [call_text h hi] at hv
  have hc : callFn env f (typed ws) = .ok v := ofResult_success hv
  obtain ⟨h1, h2, h3, h4⟩ := callFn_success hc
  constructor
  · by_contra hlt
    have : ws.length = 1 := by
      have := List.length_pos_of_ne_nil h1; omega
    have := h3 this
    simp only [OfMany, List.mem_cons, List.not_mem_nil, or_false] at hf
    rcases hf with rfl | rfl | rfl | rfl | rfl | rfl | rfl <;> cases this
  · intro w hw
    have := h4 w hw
    apply numeric_isNumber
    simp only [OfMany, List.mem_cons, List.not_mem_nil, or_false] at hf
    rcases hf with rfl | rfl | rfl | rfl | rfl | rfl | rfl <;> simpa [FuncType.allows, or_assoc] using this

/-- **C34**, INT succeeds only with exactly one item, a number. -/
theorem C34_int {args : List Arith} {s : JStr} (h : WritesArith s (.call .int args)) {env : Env} {d : Data}
    {ws : List Value} (hi : Items env d args ws) {v : Value} (hv : evaluateArith env s d = .success v) :
    ∃ w, ws = [w] ∧ IsNumber w = true := by
  rw [call_text h hi] at hv
  obtain ⟨h1, h2, h3, h4⟩ := callFn_success (ofResult_success hv)
  match ws, h1, h2, h4 with
  | [w], _, _, h4 =>
    refine ⟨w, rfl, numeric_isNumber ?_⟩
    simpa [FuncType.allows, or_assoc] using h4 w (by simp)
  | _ :: _ :: _, _, h2, _ => exact absurd (h2 (by simp)) (by decide)

/-- **C34**, DAYS_ELAPSED succeeds only with exactly one item, a date. -/
theorem C34_days {args : List Arith} {s : JStr} (h : WritesArith s (.call .daysElapsed args)) {env : Env} {d : Data}
    {ws : List Value} (hi : Items env d args ws) {v : Value} (hv : evaluateArith env s d = .success v) :
    (∃ x, ws = [.date x]) ∨ ∃ t y, ws = [.str t] ∧ ReadsDay t y := by
  rw [call_text h hi] at hv
  have hc := ofResult_success hv
  obtain ⟨h1, h2, h3, h4⟩ := callFn_success hc
  match ws, h1, h2, h4 with
  | [w], _, _, h4 =>
    have ht : getDataType w = .date := by simpa [FuncType.allows] using h4 w (by simp)
    cases w with
    | date x => exact .inl ⟨x, rfl⟩
    | str t =>
      right
      cases e : parseDate t with
      | some y => exact ⟨t, y, rfl, parseDate_iff.mp e⟩
      | none =>
        simp only [getDataType, e] at ht
        split at ht <;> cases ht
    | _ => simp [getDataType] at ht
  | _ :: _ :: _, _, h2, _ => exact absurd (h2 (by simp)) (by decide)

/-- **C34**, no function succeeds without items. -/
theorem C34_empty {f : FuncType} {args : List Arith} {s : JStr} (h : WritesArith s (.call f args)) {env : Env}
    {d : Data} (hi : Items env d args []) : evaluateArith env s d = .failure .invalidExpression := by
  rw [call_text h hi]; rfl

/-- **C34**, a failing argument makes the call fail in the same way. -/
theorem C34_strict {f : FuncType} {args : List Arith} {s : JStr} (h : WritesArith s (.call f args)) {env : Env}
    {d : Data} {e : Exn} (he : Arith.values env d args = .error e) : evaluateArith env s d = .failure e := by
  rw [h.eval env d, Arith.value, he]; rfl

example (env : Env) (f : FuncType) (hf : OfMany f) (s : JStr) (h : WritesArith s (.call f [.field ['a']])) (w : Value)
    (v : Value) : evaluateArith env s [(['a'], .list [w])] ≠ .success v := by
  intro hv
  have := (C34_many hf h (items_list env [w]) hv).1
  simp at this

example (env : Env) (d : Data) : evaluateArith env j!"min(1, 'x')" d = .failure .invalidDataType ∧
    evaluateArith env j!"int(1, 2)" d = .failure .invalidContainerType ∧
    evaluateArith env j!"sum(5)" d = .failure .invalidContainerType ∧
    evaluateArith env j!"days_elapsed('x')" d = .failure .invalidDataType := ⟨by krfl, by krfl, by krfl, by krfl⟩

example (env : Env) : evaluateArith env j!"len(a)" [(['a'], .list [])] = .failure .invalidExpression :=
  C34_empty (f := .len) (args := [.field ['a']]) (writesArith_of (by krfl)) (items_list env [])

end BoolParser
