import Verif.Lemmas.Functions
import Verif.Lemmas.Literals
/-!
# Functions, continued: AVG, MEDIAN, MODE, INT, LEN, DAYS_ELAPSED
-/

namespace BoolParser
open Spec

theorem ofInt_val (n : ℤ) : decVal (Dec.ofInt n) = n := by simp [decVal, Dec.ofInt]

theorem numbers_length {ws : List Value} {xs : List ℚ} (h : Numbers ws xs) : ws.length = xs.length := h.length_eq

theorem scaled_val (d : Dec) (k : ℤ) (sc : ℕ) (h1 : d.scale = sc) (h2 : d.unscaled = k) :
    decVal d = (k : ℚ) / 10 ^ sc := by
  unfold decVal
  rw [h1, h2, zpow_neg, zpow_natCast]; rfl

/-! ### AVG -/

theorem avgFn_decimal {ws : List Value} {xs : List ℚ} (h : Numbers ws xs) (hd : HasDecimal ws) :
    Returns (avgFn (typed ws)) ((truncate (xs.sum / xs.length * 1000) : ℚ) / 1000) := by
  obtain ⟨ds, h1, rfl⟩ := map_decs h
  unfold avgFn
  rw [if_pos ((anyType_decimal h).mpr hd), h1, ok_bind]
  have hlen : ds ≠ [] := by
    rintro rfl
    obtain ⟨w, hw, _⟩ := hd
    obtain ⟨x, hx, _⟩ := forall₂_mem_left h hw
    cases hx
  have hne : decVal (Dec.ofInt ds.length) ≠ 0 := by
    rw [ofInt_val]
    have := List.length_pos_of_ne_nil hlen
    positivity
  obtain ⟨q, hq, hs, hu⟩ := divDown_val (decSum ds) (Dec.ofInt ds.length) hne 3
  rw [hq, ok_bind]
  have hv : decVal q = (truncate ((ds.map decVal).sum / (ds.map decVal).length * 1000) : ℚ) / 1000 := by
    rw [scaled_val q _ 3 hs hu, decSum_val, ofInt_val, List.length_map]
    norm_num
  rw [← hv]
  exact castDecimal_returns q

theorem avgFn_whole {ws : List Value} {ns : List ℤ} (h : Wholes ws ns) (hne : ns ≠ []) (hin : InInt64 ns.sum) :
    ((∃ k : ℤ, (ns.sum : ℚ) / ns.length * 100 = k) → Returns (avgFn (typed ws)) ((ns.sum : ℚ) / ns.length)) ∧
    ((∀ k : ℤ, (ns.sum : ℚ) / ns.length * 100 ≠ k) → avgFn (typed ws) = .error .arithmetic) := by
  unfold avgFn
  rw [if_neg (by rw [wholes_anyType h]; simp), map_longs h, ok_bind, typed_length, h.length_eq, longSum_eq,
    wrap64_of_in hin]
  have hlen : decVal (Dec.ofInt ns.length) ≠ 0 := by
    rw [ofInt_val]
    have := List.length_pos_of_ne_nil hne
    positivity
  obtain ⟨h1, h2⟩ := divExact_val (Dec.ofInt ns.sum) (Dec.ofInt ns.length) hlen 2
  rw [ofInt_val, ofInt_val] at h1 h2
  norm_num at h1 h2
  constructor
  · rintro ⟨k, hk⟩
    obtain ⟨q, hq, hv⟩ := h1 k (by simpa using hk)
    rw [hq, ok_bind, ← hv]
    exact castDecimal_returns q
  · intro hk
    rw [h2 (fun k => by simpa using hk k)]; rfl

/-! ### MEDIAN -/

theorem insertDec_perm (x : Dec) (ys : List Dec) : (insertDec x ys).Perm (x :: ys) := by
  induction ys with
  | nil => exact .refl _
  | cons y ys ih =>
    rw [insertDec]
    split
    · exact .refl _
    · exact (ih.cons y).trans (.swap _ _ _)

theorem insertDec_sorted (x : Dec) (ys : List Dec) (h : ys.Pairwise (fun a b => decVal a ≤ decVal b)) :
    (insertDec x ys).Pairwise (fun a b => decVal a ≤ decVal b) := by
  induction ys with
  | nil => simp [insertDec]
  | cons y ys ih =>
    rw [insertDec]
    rw [List.pairwise_cons] at h
    have hc := Dec.cmp_eq x y
    split
    · rename_i hl
      have hlt : decVal x < decVal y := (cmp_eq_lt_iff _ _).mp (by rw [← hc]; simpa using hl)
      rw [List.pairwise_cons, List.pairwise_cons]
      refine ⟨?_, h⟩
      intro z hz
      rcases List.mem_cons.mp hz with rfl | hz
      · exact hlt.le
      · exact hlt.le.trans (h.1 z hz)
    · rename_i hl
      have hle : decVal y ≤ decVal x := by
        by_contra hc'
        exact hl (by rw [hc, (cmp_eq_lt_iff _ _).mpr (not_le.mp hc')]; rfl)
      rw [List.pairwise_cons]
      refine ⟨?_, ih h.2⟩
      intro z hz
      rcases List.mem_cons.mp ((insertDec_perm x ys).mem_iff.mp hz) with rfl | hz
      · exact hle
      · exact h.1 z hz

theorem sortDecs_go (xs acc : List Dec) :
    (xs.foldl (fun acc x => insertDec x acc) acc).Perm (xs ++ acc) ∧
    (acc.Pairwise (fun a b => decVal a ≤ decVal b) →
      (xs.foldl (fun acc x => insertDec x acc) acc).Pairwise (fun a b => decVal a ≤ decVal b)) := by
  induction xs generalizing acc with
  | nil => exact ⟨.refl _, id⟩
  | cons x xs ih =>
    obtain ⟨h1, h2⟩ := ih (insertDec x acc)
    refine ⟨h1.trans ?_, fun h => h2 (insertDec_sorted x acc h)⟩
    exact ((insertDec_perm x acc).append_left xs).trans List.perm_middle

theorem sortDecs_spec {xs : List Dec} {ys : List ℚ} (hp : ys.Perm (xs.map decVal)) (hs : ys.Pairwise (· ≤ ·)) :
    (sortDecs xs).map decVal = ys := by
  obtain ⟨h1, h2⟩ := sortDecs_go xs []
  rw [List.append_nil] at h1
  have h3 := h2 List.Pairwise.nil
  have h4 : ((sortDecs xs).map decVal).Pairwise (· ≤ ·) := List.pairwise_map.mpr h3
  exact (((h1.map decVal).trans hp.symm)).eq_of_pairwise (fun a b _ _ h h' => le_antisymm h h') h4 hs

theorem getAt_map {ds : List Dec} {ys : List ℚ} (h : ds.map decVal = ys) {i : ℕ} {y : ℚ} (hy : ys[i]? = some y) :
    ∃ d, getAt ds i = .ok d ∧ decVal d = y := by
  subst h
  rw [List.getElem?_map] at hy
  cases hd : ds[i]? with
  | none => rw [hd] at hy; cases hy
  | some d =>
    rw [hd] at hy
    refine ⟨d, by unfold getAt; rw [hd], by simpa using hy⟩

theorem medianFn_odd {ws : List Value} {xs ys : List ℚ} (h : Numbers ws xs) (hp : ys.Perm xs)
    (hs : ys.Pairwise (· ≤ ·)) (hodd : xs.length % 2 = 1) {y : ℚ} (hy : ys[xs.length / 2]? = some y) :
    Returns (medianFn (typed ws)) y := by
  obtain ⟨ds, h1, h2⟩ := map_decs h
  subst h2
  unfold medianFn
  rw [h1, ok_bind]
  have hlen : (typed ws).length = ds.length := by
    rw [typed_length, numbers_length h, List.length_map]
  simp only [hlen]
  rw [List.length_map] at hodd hy
  rw [if_neg (by omega)]
  obtain ⟨d, hd, rfl⟩ := getAt_map (sortDecs_spec hp hs) hy
  rw [hd, ok_bind]
  exact castDecimal_returns d

theorem medianFn_even {ws : List Value} {xs ys : List ℚ} (h : Numbers ws xs) (hp : ys.Perm xs)
    (hs : ys.Pairwise (· ≤ ·)) (heven : xs.length % 2 = 0) {x y : ℚ} (hx : ys[xs.length / 2 - 1]? = some x)
    (hy : ys[xs.length / 2]? = some y) :
    Returns (medianFn (typed ws)) ((truncate ((x + y) / 2 * 100) : ℚ) / 100) := by
  obtain ⟨ds, h1, h2⟩ := map_decs h
  subst h2
  unfold medianFn
  rw [h1, ok_bind]
  have hlen : (typed ws).length = ds.length := by
    rw [typed_length, numbers_length h, List.length_map]
  simp only [hlen]
  rw [List.length_map] at heven hy hx
  rw [if_pos (by omega)]
  obtain ⟨d, hd, rfl⟩ := getAt_map (sortDecs_spec hp hs) hy
  obtain ⟨e, he, rfl⟩ := getAt_map (sortDecs_spec hp hs) hx
  rw [hd, ok_bind, he, ok_bind]
  obtain ⟨q, hq, hsc, hu⟩ := divDown_val (d.add e) (Dec.ofInt 2) (by rw [ofInt_val]; norm_num) 2
  rw [hq, ok_bind]
  have hv : decVal q = (truncate ((decVal e + decVal d) / 2 * 100) : ℚ) / 100 := by
    rw [scaled_val q _ 2 hsc hu, decVal_add, ofInt_val, add_comm]
    norm_num
  rw [← hv]
  exact castDecimal_returns q

/-! ### MODE -/

section Mode
open scoped Classical

theorem jEquals_iff {a b : Value} (h : IsNumber a = true) : jEquals a b = true ↔ a = b := by
  cases a <;> cases b <;> simp_all [jEquals, IsNumber]

/-- The map holds the occurrence counts of the values seen so far. -/
def Counts (hm : List (Value × ℕ)) (pre : List Value) : Prop :=
  (∀ e ∈ hm, IsNumber e.1 = true) ∧
  ∀ v, countOf hm v = if occurrences v pre = 0 then none else some (occurrences v pre)

theorem occ_append (v w : Value) (pre : List Value) :
    occurrences v (pre ++ [w]) = occurrences v pre + if v = w then 1 else 0 := by
  have e : ∀ ws, occurrences v ws = ws.count v := fun ws => by unfold occurrences; congr
  rw [e, e, List.count_append, List.count_singleton]
  by_cases h : v = w
  · simp [h]
  · simp [h, Ne.symm h]

theorem countOf_put (hm : List (Value × ℕ)) (h : ∀ e ∈ hm, IsNumber e.1 = true) (v : Value) (hv : IsNumber v = true)
    (n : ℕ) (w : Value) : countOf (putCount hm v n) w = if v = w then some n else countOf hm w := by
  induction hm with
  | nil =>
    show (if jEquals v w then some n else none) = _
    by_cases e : v = w
    · rw [if_pos ((jEquals_iff hv).mpr e), if_pos e]
    · rw [if_neg (fun h => e ((jEquals_iff hv).mp h)), if_neg e]; rfl
  | cons p hm ih =>
    obtain ⟨k, m⟩ := p
    have hk := h (k, m) (by simp)
    have ih' := ih (fun e he => h e (by simp [he]))
    show countOf (if jEquals k v then (k, n) :: hm else (k, m) :: putCount hm v n) w = _
    by_cases e : k = v
    · subst e
      rw [if_pos ((jEquals_iff hk).mpr rfl)]
      show (if jEquals k w then some n else countOf hm w) = _
      by_cases e' : k = w
      · rw [if_pos ((jEquals_iff hk).mpr e'), if_pos e']
      · rw [if_neg (fun h => e' ((jEquals_iff hk).mp h)), if_neg e']
        show _ = (if jEquals k w then some m else countOf hm w)
        rw [if_neg (fun h => e' ((jEquals_iff hk).mp h))]
    · rw [if_neg (fun h => e ((jEquals_iff hk).mp h))]
      show (if jEquals k w then some m else countOf (putCount hm v n) w) =
        (if v = w then some n else if jEquals k w then some m else countOf hm w)
      by_cases e' : k = w
      · subst e'
        rw [if_pos ((jEquals_iff hk).mpr rfl), if_neg (Ne.symm e), if_pos ((jEquals_iff hk).mpr rfl)]
      · rw [if_neg (fun h => e' ((jEquals_iff hk).mp h)), if_neg (fun h => e' ((jEquals_iff hk).mp h)), ih']

theorem putCount_numbers (hm : List (Value × ℕ)) (h : ∀ e ∈ hm, IsNumber e.1 = true) (v : Value)
    (hv : IsNumber v = true) (n : ℕ) : ∀ e ∈ putCount hm v n, IsNumber e.1 = true := by
  induction hm with
  | nil => intro e he; simp [putCount] at he; subst he; exact hv
  | cons p hm ih =>
    obtain ⟨k, m⟩ := p
    have hk := h (k, m) (by simp)
    have ih' := ih (fun e he => h e (by simp [he]))
    intro e he
    unfold putCount at he
    split at he
    · rcases List.mem_cons.mp he with rfl | he
      · exact hk
      · exact h e (by simp [he])
    · rcases List.mem_cons.mp he with rfl | he
      · exact hk
      · exact ih' e he

theorem counts_put {hm : List (Value × ℕ)} {pre : List Value} (h : Counts hm pre) {v : Value}
    (hv : IsNumber v = true) {n : ℕ} (hn : n = occurrences v pre + 1) : Counts (putCount hm v n) (pre ++ [v]) := by
  refine ⟨putCount_numbers hm h.1 v hv n, fun w => ?_⟩
  rw [countOf_put hm h.1 v hv, occ_append, h.2 w]
  by_cases e : v = w
  · subst e; simp [hn]
  · simp [e, Ne.symm e]

theorem occ_mono (v : Value) (p q : List Value) : occurrences v p ≤ occurrences v (p ++ q) := by
  unfold occurrences
  rw [List.count_append]
  exact Nat.le_add_right _ _

theorem modeGo_spec (vs : List Value) (hvs : ∀ v ∈ vs, IsNumber v = true) (pre : List Value) (hm : List (Value × ℕ))
    (temp : Value) (hc : Counts hm pre) (hf : FirstMostFrequent temp pre) :
    FirstMostFrequent (modeGo vs hm (occurrences temp pre) temp) (pre ++ vs) := by
  induction vs generalizing pre hm temp with
  | nil => rw [List.append_nil]; exact hf
  | cons w vs ih =>
    have hw := hvs w (by simp)
    have hvs' : ∀ v ∈ vs, IsNumber v = true := fun v hv => hvs v (by simp [hv])
    have happ : pre ++ w :: vs = (pre ++ [w]) ++ vs := by simp
    rw [happ]
    have hcw := hc.2 w
    obtain ⟨hmax, b, a, hsplit, hb1, hb2⟩ := hf
    have h1 : 1 ≤ occurrences temp pre := by
      rw [← hb1, occ_append]; simp
    have hmw := hmax w
    -- if the candidate stays
    have stay : occurrences w pre + 1 ≤ occurrences temp pre → temp ≠ w → FirstMostFrequent temp (pre ++ [w]) ∧
        occurrences temp (pre ++ [w]) = occurrences temp pre := by
      intro hle hne
      have e : occurrences temp (pre ++ [w]) = occurrences temp pre := by rw [occ_append]; simp [hne]
      refine ⟨⟨fun v => ?_, b, a ++ [w], by rw [hsplit]; simp, by rw [hb1, e], fun v => by rw [e]; exact hb2 v⟩, e⟩
      rw [e, occ_append]
      by_cases hv : v = w
      · subst hv; simpa using hle
      · simpa [hv] using hmax v
    by_cases h0 : occurrences w pre = 0
    · rw [if_pos h0] at hcw
      rw [modeGo]
      simp only [hcw]
      obtain ⟨s1, s2⟩ := stay (by omega) (by rintro rfl; omega)
      have := ih hvs' _ _ temp (counts_put hc hw (by rw [h0])) s1
      rwa [s2] at this
    · rw [if_neg h0] at hcw
      rw [modeGo]
      simp only [hcw]
      by_cases hlt : occurrences temp pre < occurrences w pre + 1
      · rw [if_pos hlt]
        have e : occurrences w (pre ++ [w]) = occurrences w pre + 1 := by rw [occ_append]; simp
        have hf' : FirstMostFrequent w (pre ++ [w]) := by
          refine ⟨fun v => ?_, pre, [], by simp, rfl, fun v => by rw [e]; have := hmax v; omega⟩
          rw [e, occ_append]
          by_cases hv : v = w
          · subst hv; simp
          · simp only [hv, if_false, add_zero]; have := hmax v; omega
        have := ih hvs' _ _ w (counts_put hc hw rfl) hf'
        rwa [e] at this
      · rw [if_neg hlt]
        obtain ⟨s1, s2⟩ := stay (by omega) (by rintro rfl; omega)
        have := ih hvs' _ _ temp (counts_put hc hw rfl) s1
        rwa [s2] at this

theorem mode_spec {w : Value} {ws : List Value} (h : ∀ v ∈ w :: ws, IsNumber v = true) :
    FirstMostFrequent (modeGo (w :: ws) [] 1 w) (w :: ws) := by
  show FirstMostFrequent (modeGo ws [(w, 1)] 1 w) _
  have ho : ∀ v, occurrences v [w] = if v = w then 1 else 0 := by
    intro v; have := occ_append v w []; simpa [occurrences] using this
  have hw : occurrences w [w] = 1 := by rw [ho]; simp
  have hz : ∀ v, occurrences v [] = 0 := fun v => by simp [occurrences]
  have := modeGo_spec ws (fun v hv => h v (by simp [hv])) [w] [(w, 1)] w ⟨?_, ?_⟩
    ⟨fun v => by rw [ho, ho]; split <;> simp, [], [], rfl, rfl, fun v => by rw [hz, hw]; exact Nat.one_pos⟩
  · rwa [hw] at this
  · intro e he; simp at he; subst he; exact h w (by simp)
  · intro v
    show (if jEquals w v then some 1 else none) = _
    rw [ho]
    by_cases e : w = v
    · subst e; rw [if_pos ((jEquals_iff (h w (by simp))).mpr rfl)]; simp
    · rw [if_neg (fun hh => e ((jEquals_iff (h w (by simp))).mp hh))]; simp [Ne.symm e]

theorem first_unique {v w : Value} {ws : List Value} (hv : FirstMostFrequent v ws) (hw : FirstMostFrequent w ws) :
    v = w := by
  obtain ⟨mv, b, a, e, c1, c2⟩ := hv
  obtain ⟨mw, b', a', e', d1, d2⟩ := hw
  have hm : occurrences v ws = occurrences w ws := le_antisymm (mw v) (mv w)
  have key : ∀ {v w : Value} {b a b' a' : List Value}, ws = b ++ v :: a → ws = b' ++ w :: a' →
      occurrences v (b ++ [v]) = occurrences v ws → occurrences v b' < occurrences w ws →
      occurrences v ws = occurrences w ws → b'.length ≤ b.length := by
    intro v w b a b' a' e e' c d hm
    by_contra hlt
    have hp : b ++ [v] <+: b' := by
      refine List.prefix_of_prefix_length_le (l₃ := ws) ⟨a, by rw [e]; simp⟩ ⟨w :: a', e'.symm⟩ ?_
      simp; omega
    obtain ⟨t, ht⟩ := hp
    have := occ_mono v (b ++ [v]) t
    rw [ht] at this
    omega
  have l1 := key e e' c1 (d2 v) hm
  have l2 := key e' e d1 (c2 w) hm.symm
  have hl : b.length = b'.length := by omega
  have := e.symm.trans e'
  obtain ⟨_, h2⟩ := List.append_inj this hl
  injection h2

end Mode

theorem num_isNumber {a : Value} {x : ℚ} (h : Num a x) : IsNumber a = true := by cases h <;> rfl

/-! ### INT -/

theorem trunc_val (d : Dec) : d.trunc = truncate (decVal d) := by
  unfold Dec.trunc
  split
  · rename_i h
    unfold decVal
    have : ((d.unscaled : ℚ) * 10 ^ (-d.scale)) = ((d.unscaled * Dec.p10 (-d.scale).toNat : ℤ) : ℚ) := by
      push_cast; rw [p10_cast, Int.toNat_of_nonneg (by omega)]
    rw [this]
    unfold truncate
    split
    · rw [Int.floor_intCast]
    · rw [Int.ceil_intCast]
  · rename_i h
    have hp := Dec.p10_pos d.scale.toNat
    rw [← truncate_tdiv _ _ hp.ne']
    congr 1
    rw [p10_cast, Int.toNat_of_nonneg (by omega)]
    unfold decVal
    rw [zpow_neg]; rfl

theorem callFn_one (env : Env) {f : FuncType} (hf : f.allowsOne = true) {w : Value}
    (ht : f.allows (getDataType w) = true) (hv : isValid (getDataType w) w = .ok true) :
    callFn env f (typed [w]) = evalFn env f (typed [w]) := by
  rw [callFn_eq, validateItems_ok (by simpa using hv)]
  show (if false = true then _ else if (!if 1 < 1 then f.allowsMany else f.allowsOne) = true then _ else
    if (!(f.allows (getDataType w) && true)) = true then _ else _) = _
  rw [ht, hf]; rfl

theorem callInt_num (env : Env) {a : Value} {x : ℚ} (h : Num a x) (hx : InInt32 (truncate x)) :
    callFn env .int (typed [a]) = .ok (.int (truncate x)) := by
  rw [callFn_one env rfl (by rcases num_type h with e | e | e <;> rw [e] <;> rfl) (num_valid h)]
  show intFn [(a, getDataType a)] = _
  have whole : ∀ n : ℤ, truncate (n : ℚ) = n := fun n => by unfold truncate; split <;> simp
  rcases num_cases h with ⟨n, rfl, hn⟩ | hd
  · rw [whole] at hx ⊢
    cases hn with
    | int _ => rfl
    | long _ =>
      show Except.ok (Value.int (wrap32 n)) = _
      rw [wrap32_of_in hx]
  · obtain ⟨e, he, rfl⟩ := num_asDec h
    unfold intFn
    simp only [decimal_type hd, beq_self_eq_true, if_true, he, getOpt_some, ok_bind]
    show Except.ok (Value.int (wrap32 e.trunc)) = _
    rw [trunc_val, wrap32_of_in hx]

/-! ### DAYS_ELAPSED -/

theorem monthDays_eq (y : ℤ) (m : ℕ) : IsDay.monthDays y m = monthLen y m := by
  unfold IsDay.monthDays monthLen isLeap
  have h4 : (4 : ℤ) ∣ y ↔ y % 4 = 0 := Int.dvd_iff_emod_eq_zero
  have h100 : (100 : ℤ) ∣ y ↔ y % 100 = 0 := Int.dvd_iff_emod_eq_zero
  have h400 : (400 : ℤ) ∣ y ↔ y % 400 = 0 := Int.dvd_iff_emod_eq_zero
  simp only [List.mem_cons, List.not_mem_nil, or_false, h4, h100, h400, Bool.and_eq_true, Bool.or_eq_true,
    decide_eq_true_eq, ne_eq]

/-- Days before year `y`, up to a constant. -/
def yearDays (y : ℤ) : ℤ := 365 * y + (y + 3) / 4 - (y + 99) / 100 + (y + 399) / 400

/-- Days before month `m` in year `y`. -/
def monthStart (y : ℤ) (m : ℕ) : ℤ :=
  (367 * (m : ℤ) - 362) / 12 - (if 2 < m then (if isLeap y then 1 else 2) else 0)

theorem epochDay_eq (d : Date) (h : 1 ≤ d.month) :
    epochDay d = yearDays d.year + monthStart d.year d.month + d.day - 1 - 719528 := by
  have e1 : (if 0 ≤ d.year then (d.year + 3).tdiv 4 - (d.year + 99).tdiv 100 + (d.year + 399).tdiv 400
    else -(d.year.tdiv (-4) - d.year.tdiv (-100) + d.year.tdiv (-400)))
      = (d.year + 3) / 4 - (d.year + 99) / 100 + (d.year + 399) / 400 := by
    split
    · rw [Int.tdiv_eq_ediv_of_nonneg (by omega), Int.tdiv_eq_ediv_of_nonneg (by omega),
        Int.tdiv_eq_ediv_of_nonneg (by omega)]
    · obtain ⟨k, hk⟩ : ∃ k, d.year = -k := ⟨-d.year, by omega⟩
      rw [hk, Int.neg_tdiv_neg, Int.neg_tdiv_neg, Int.neg_tdiv_neg, Int.tdiv_eq_ediv_of_nonneg (by omega),
        Int.tdiv_eq_ediv_of_nonneg (by omega), Int.tdiv_eq_ediv_of_nonneg (by omega)]
      omega
  have e2 : (367 * (d.month : ℤ) - 362).tdiv 12 = (367 * (d.month : ℤ) - 362) / 12 :=
    Int.tdiv_eq_ediv_of_nonneg (by omega)
  unfold epochDay
  simp only [e1, e2]
  unfold yearDays monthStart
  split
  · split <;> omega
  · omega

theorem isLeap_iff (y : ℤ) : isLeap y = true ↔ (y % 4 = 0 ∧ (y % 100 ≠ 0 ∨ y % 400 = 0)) := by
  simp [isLeap]

theorem yearDays_succ (y : ℤ) : yearDays (y + 1) = yearDays y + (if isLeap y then 366 else 365) := by
  unfold yearDays
  by_cases h : isLeap y = true
  · rw [if_pos h]; rw [isLeap_iff] at h; omega
  · rw [if_neg h]; rw [isLeap_iff] at h; omega

theorem monthStart_succ (y : ℤ) {m : ℕ} (h1 : 1 ≤ m) (h2 : m < 12) :
    monthStart y (m + 1) = monthStart y m + monthLen y m := by
  unfold monthStart monthLen
  interval_cases m <;> cases isLeap y <;> rfl

theorem monthStart_one (y : ℤ) : monthStart y 1 = 0 := rfl

theorem monthStart_dec (y : ℤ) : monthStart y 12 + 31 = if isLeap y then 366 else 365 := by
  unfold monthStart; cases isLeap y <;> rfl

theorem epochDay_after {d : Date} (h : IsDay d) : epochDay (dayAfter d) = epochDay d + 1 := by
  obtain ⟨h1, h2, h3, h4⟩ := h
  rw [monthDays_eq] at h4
  unfold dayAfter
  rw [monthDays_eq]
  rw [epochDay_eq d h1]
  split
  · rw [epochDay_eq ⟨d.year, d.month, d.day + 1⟩ h1]; push_cast; ring
  · split
    · rename_i hnot h12
      rw [epochDay_eq _ (by simp)]
      simp only [yearDays_succ, monthStart_one]
      have := monthStart_dec d.year
      have hl : monthLen d.year 12 = 31 := rfl
      rw [h12] at h4 ⊢
      rw [hl] at h4
      rw [h12, hl] at hnot
      have : d.day = 31 := by omega
      rw [this]; push_cast; omega
    · rename_i hnot h12
      rw [epochDay_eq _ (by simp)]
      simp only [monthStart_succ d.year h1 (by omega)]
      have : d.day = monthLen d.year d.month := by omega
      rw [← this]; push_cast; omega

theorem monthLen_pos (y : ℤ) (m : ℕ) : 1 ≤ monthLen y m := by
  unfold monthLen; split
  · omega
  · split
    · split <;> omega
    · omega

theorem dayAfter_isDay {d : Date} (h : IsDay d) : IsDay (dayAfter d) := by
  obtain ⟨h1, h2, h3, h4⟩ := h
  unfold dayAfter
  split
  · rename_i h5; exact ⟨h1, h2, by simp, h5⟩
  · split
    · exact ⟨by simp, by simp, by simp, by rw [monthDays_eq]; exact monthLen_pos _ _⟩
    · exact ⟨by simp, by simp; omega, by simp, by rw [monthDays_eq]; exact monthLen_pos _ _⟩

theorem epochDay_daysAfter (k : ℕ) {d : Date} (h : IsDay d) :
    IsDay (daysAfter k d) ∧ epochDay (daysAfter k d) = epochDay d + k := by
  induction k generalizing d with
  | zero => exact ⟨h, by simp [daysAfter]⟩
  | succ k ih =>
    obtain ⟨h1, h2⟩ := ih (dayAfter_isDay h)
    refine ⟨h1, ?_⟩
    show epochDay (daysAfter k (dayAfter d)) = _
    rw [h2, epochDay_after h]; push_cast; ring

theorem monthStart_lt (y : ℤ) {m m' : ℕ} (h1 : 1 ≤ m) (h : m < m') (h2 : m' ≤ 12) :
    monthStart y m + monthLen y m ≤ monthStart y m' := by
  induction m', h using Nat.le_induction with
  | base => rw [← monthStart_succ y h1 (by omega)]
  | succ n hn ih =>
    rw [monthStart_succ y (by omega) (by omega)]
    have := ih (by omega)
    have := monthLen_pos y n
    omega

theorem yearDays_lt {y y' : ℤ} (h : y < y') : yearDays y + (if isLeap y then 366 else 365) ≤ yearDays y' := by
  obtain ⟨k, rfl⟩ : ∃ k : ℕ, y' = y + 1 + k := ⟨(y' - (y + 1)).toNat, by omega⟩
  induction k with
  | zero => rw [← yearDays_succ]; simp
  | succ n ih =>
    have := yearDays_succ (y + 1 + n)
    have h2 := ih (by omega)
    push_cast
    rw [← add_assoc, this]
    split_ifs at * <;> omega

theorem monthEnd_le (y : ℤ) {m : ℕ} (h1 : 1 ≤ m) (h2 : m ≤ 12) :
    monthStart y m + monthLen y m ≤ if isLeap y then 366 else 365 := by
  rw [← monthStart_dec]
  rcases Nat.lt_or_eq_of_le h2 with h | h
  · have := monthStart_lt y h1 h le_rfl; omega
  · subst h; exact le_refl _

theorem monthStart_nonneg (y : ℤ) {m : ℕ} (h1 : 1 ≤ m) (h2 : m ≤ 12) : 0 ≤ monthStart y m := by
  rcases Nat.lt_or_eq_of_le h1 with h | h
  · have := monthStart_lt y le_rfl h h2
    rw [monthStart_one] at this
    omega
  · subst h; exact le_refl _

/-- Different days have different numbers. -/
theorem epochDay_inj {d e : Date} (hd : IsDay d) (he : IsDay e) (h : epochDay d = epochDay e) : d = e := by
  obtain ⟨d1, d2, d3, d4⟩ := hd
  obtain ⟨e1, e2, e3, e4⟩ := he
  rw [monthDays_eq] at d4 e4
  rw [epochDay_eq d d1, epochDay_eq e e1] at h
  have aux : ∀ a b : Date, 1 ≤ a.month → a.month ≤ 12 → 1 ≤ b.month → b.month ≤ 12 →
      a.day ≤ monthLen a.year a.month → 1 ≤ b.day → a.year < b.year →
      yearDays a.year + monthStart a.year a.month + a.day < yearDays b.year + monthStart b.year b.month + b.day := by
    intro a b a1 a2 b1 b2 a3 b3 hy
    have i1 := yearDays_lt hy
    have i2 := monthEnd_le a.year a1 a2
    have i3 := monthStart_nonneg b.year b1 b2
    omega
  have hy : d.year = e.year := by
    rcases lt_trichotomy d.year e.year with h' | h' | h'
    · have := aux d e d1 d2 e1 e2 d4 e3 h'; omega
    · exact h'
    · have := aux e d e1 e2 d1 d2 e4 d3 h'; omega
  obtain ⟨y, m, k⟩ := d
  obtain ⟨y', m', k'⟩ := e
  simp only at *
  subst hy
  have hm : m = m' := by
    rcases lt_trichotomy m m' with h' | h' | h'
    · have := monthStart_lt y d1 h' e2; omega
    · exact h'
    · have := monthStart_lt y e1 h' d2; omega
  subst hm
  congr 1
  omega

/-- Any two days are a number of days apart. -/
theorem days_total {d e : Date} (hd : IsDay d) (he : IsDay e) :
    ∃ k, e = daysAfter k d ∨ d = daysAfter k e := by
  rcases le_total (epochDay d) (epochDay e) with h | h
  · refine ⟨(epochDay e - epochDay d).toNat, .inl ?_⟩
    obtain ⟨h1, h2⟩ := epochDay_daysAfter (epochDay e - epochDay d).toNat hd
    exact epochDay_inj he h1 (by rw [h2]; omega)
  · refine ⟨(epochDay d - epochDay e).toNat, .inr ?_⟩
    obtain ⟨h1, h2⟩ := epochDay_daysAfter (epochDay d - epochDay e).toNat he
    exact epochDay_inj hd h1 (by rw [h2]; omega)

end BoolParser
