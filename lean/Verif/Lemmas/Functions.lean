import Mathlib.Data.List.Perm.Basic
import Mathlib.Algebra.BigOperators.Group.List.Basic
import Verif.Spec.Functions
import Verif.Lemmas.Arithmetic
import Verif.Lemmas.Lists
/-!
# Functions
-/

namespace BoolParser
open Spec

/-- The items as the functions get them. -/
def typed (ws : List Value) : List Typed := ws.map (fun w => (w, getDataType w))

theorem call_text {s : JStr} {f : FuncType} {args : List Arith} (h : WritesArith s (.call f args)) {env : Env}
    {d : Data} {ws : List Value} (hi : Items env d args ws) :
    evaluateArith env s d = .ofResult (callFn env f (typed ws)) := by
  obtain ⟨vs, hv, rfl⟩ := hi
  rw [h.eval env d, Arith.value, hv, ok_bind, flattenItems_elements]; rfl

theorem typed_length (ws : List Value) : (typed ws).length = ws.length := by simp [typed]

/-! ### Validation -/

theorem validateItems_ok {ws : List Value} (h : ∀ w ∈ ws, isValid (getDataType w) w = .ok true) :
    validateItems (typed ws) = .ok () := by
  induction ws with
  | nil => rfl
  | cons w ws ih =>
    show validateItems ((w, getDataType w) :: typed ws) = _
    rw [validateItems_cons]
    simp only [h w (by simp), ok_bind, Bool.not_true, Bool.false_eq_true, if_false]
    exact ih (fun x hx => h x (by simp [hx]))

/-- The functions of several numbers. -/
def FuncType.isList : FuncType → Bool
  | .min | .max | .avg | .sum | .mean | .mode | .median => true
  | _ => false

theorem numbers_mem {ws : List Value} {xs : List ℚ} (h : Numbers ws xs) {w : Value} (hw : w ∈ ws) : ∃ x, Num w x := by
  obtain ⟨x, _, hx⟩ := forall₂_mem_left h hw
  exact ⟨x, hx⟩

theorem callFn_numbers (env : Env) {f : FuncType} (hf : f.isList = true) {ws : List Value} {xs : List ℚ}
    (h : Numbers ws xs) (h2 : 2 ≤ ws.length) : callFn env f (typed ws) = evalFn env f (typed ws) := by
  have h1 : (typed ws).isEmpty = false := by
    cases ws with
    | nil => simp at h2
    | cons w ws => rfl
  have hall : ((typed ws).all (fun x => f.allows x.2)) = true := by
    rw [List.all_eq_true]
    intro x hx
    obtain ⟨w, hw, rfl⟩ := List.mem_map.mp hx
    obtain ⟨y, hy⟩ := numbers_mem h hw
    show f.allows (getDataType w) = true
    rcases num_type hy with e | e | e <;> rw [e] <;> cases f <;> first | rfl | cases hf
  have hmany : f.allowsMany = true := by cases f <;> first | rfl | cases hf
  rw [callFn_eq, h1, hall, validateItems_ok (fun w hw => by obtain ⟨x, hx⟩ := numbers_mem h hw; exact num_valid hx),
    typed_length, if_pos (show 1 < ws.length by omega), hmany]
  rfl

theorem list_text {s : JStr} {f : FuncType} (hf : f.isList = true) {args : List Arith}
    (h : WritesArith s (.call f args)) {env : Env} {d : Data} {ws : List Value} (hi : Items env d args ws)
    {xs : List ℚ} (hn : Numbers ws xs) (h2 : 2 ≤ ws.length) :
    evaluateArith env s d = .ofResult (evalFn env f (typed ws)) := by
  rw [call_text h hi, callFn_numbers env hf hn h2]

/-! ### Coercions -/

theorem anyType_decimal {ws : List Value} {xs : List ℚ} (h : Numbers ws xs) :
    anyType .decimal (typed ws) = true ↔ HasDecimal ws := by
  unfold anyType typed HasDecimal
  rw [List.any_eq_true]
  constructor
  · rintro ⟨x, hx, ht⟩
    obtain ⟨w, hw, rfl⟩ := List.mem_map.mp hx
    obtain ⟨y, hy⟩ := numbers_mem h hw
    exact ⟨w, hw, by rw [← num_isDecimal hy]; exact ht⟩
  · rintro ⟨w, hw, hd⟩
    obtain ⟨y, hy⟩ := numbers_mem h hw
    exact ⟨_, List.mem_map.mpr ⟨w, hw, rfl⟩, by rw [num_isDecimal hy]; exact hd⟩

theorem mapGetOpt_cons {α : Type} (f : Value → Result (Option α)) (x : Typed) (xs : List Typed) :
    mapGetOpt f (x :: xs) = getOpt (f x.1) >>= fun a => mapGetOpt f xs >>= fun as => pure (a :: as) := rfl

theorem mapGetOpt_forall {α β : Type} {f : Value → Result (Option α)} {R : Value → β → Prop} {g : α → β}
    (hf : ∀ w b, R w b → ∃ a, f w = .ok (some a) ∧ g a = b) {ws : List Value} {bs : List β}
    (h : List.Forall₂ R ws bs) : ∃ as, mapGetOpt f (typed ws) = .ok as ∧ as.map g = bs := by
  induction h with
  | nil => exact ⟨[], rfl, rfl⟩
  | @cons w b ws bs hw _ ih =>
    obtain ⟨a, h1, h2⟩ := hf w b hw
    obtain ⟨as, h3, h4⟩ := ih
    refine ⟨a :: as, ?_, by simp [h2, h4]⟩
    show mapGetOpt f ((w, getDataType w) :: typed ws) = _
    rw [mapGetOpt_cons, h1, getOpt_some, ok_bind, h3]; rfl

theorem map_decs {ws : List Value} {xs : List ℚ} (h : Numbers ws xs) :
    ∃ ds, mapGetOpt asDec (typed ws) = .ok ds ∧ ds.map decVal = xs :=
  mapGetOpt_forall (fun _ _ hw => num_asDec hw) h

theorem map_longs {ws : List Value} {ns : List ℤ} (h : Wholes ws ns) : mapGetOpt asLong (typed ws) = .ok ns := by
  obtain ⟨as, h1, h2⟩ := mapGetOpt_forall (g := id) (fun w n hw => ⟨n, whole_asLong hw, rfl⟩) h
  rw [h1]; rw [List.map_id] at h2; rw [h2]

theorem map_ints {ws : List Value} {ns : List ℤ} (h : Wholes ws ns) (hl : ∀ w ∈ ws, IsLong w = false) :
    mapGetOpt asInt (typed ws) = .ok ns := by
  induction h with
  | nil => rfl
  | @cons w b ws bs hw _ ih =>
    show mapGetOpt asInt ((w, getDataType w) :: typed ws) = _
    rw [mapGetOpt_cons, whole_asInt hw (hl w (by simp)), getOpt_some, ok_bind, ih (fun x hx => hl x (by simp [hx]))]
    rfl

theorem wholes_numbers {ws : List Value} {ns : List ℤ} (h : Wholes ws ns) : Numbers ws (ns.map (fun n : ℤ => (n : ℚ))) := by
  induction h with
  | nil => exact .nil
  | cons h _ ih => exact .cons (whole_num h) ih

/-- Numbers without a decimal are whole numbers. -/
theorem numbers_wholes {ws : List Value} {xs : List ℚ} (h : Numbers ws xs) (hd : ¬ HasDecimal ws) :
    ∃ ns : List ℤ, xs = ns.map (fun n : ℤ => (n : ℚ)) ∧ Wholes ws ns := by
  induction h with
  | nil => exact ⟨[], rfl, .nil⟩
  | @cons w x ws xs hw _ ih =>
    obtain ⟨ns, h1, h2⟩ := ih (fun ⟨v, hv, hv'⟩ => hd ⟨v, by simp [hv], hv'⟩)
    rcases num_cases hw with ⟨n, rfl, hn⟩ | hdec
    · exact ⟨n :: ns, by simp [h1], .cons hn h2⟩
    · exact absurd ⟨w, by simp, hdec⟩ hd

theorem wholes_noDecimal {ws : List Value} {ns : List ℤ} (h : Wholes ws ns) : ¬ HasDecimal ws := by
  rintro ⟨w, hw, hd⟩
  obtain ⟨n, _, hn⟩ := forall₂_mem_left h hw
  cases hn <;> cases hd

theorem wholes_anyType {ws : List Value} {ns : List ℤ} (h : Wholes ws ns) : anyType .decimal (typed ws) = false := by
  by_contra hc
  exact wholes_noDecimal h ((anyType_decimal (wholes_numbers h)).mp (by simpa using hc))

theorem anyType_long {ws : List Value} {ns : List ℤ} (h : Wholes ws ns) (hl : anyType .long (typed ws) = false) :
    ∀ w ∈ ws, IsLong w = false := by
  intro w hw
  obtain ⟨n, _, hn⟩ := forall₂_mem_left h hw
  rw [← whole_isLong hn]
  unfold anyType typed at hl
  rw [List.any_eq_false] at hl
  have := hl _ (List.mem_map.mpr ⟨w, hw, rfl⟩)
  simpa using this

/-! ### `double` -/

theorem longToDouble_small {n : ℤ} (h : |n| ≤ 2 ^ 53) : longToDouble n = n := by
  have hr : roundMag n.natAbs = n.natAbs := by
    have h' : n.natAbs ≤ 2 ^ 53 := by rw [Int.abs_eq_natAbs] at h; exact_mod_cast h
    rcases lt_or_eq_of_le h' with h1 | h1
    · unfold roundMag; rw [if_pos h1]
    · rw [h1]; rfl
  unfold longToDouble
  rw [hr]
  split <;> omega

theorem castWhole_returns (n : ℤ) : ReturnsWhole (.success (castWhole n)) n := by
  unfold castWhole
  exact ⟨fun h => by rw [if_pos h], fun h => by rw [if_neg h]⟩

/-! ### MIN and MAX -/

theorem decMin_spec (d : Dec) (ds : List Dec) :
    decMin d ds ∈ d :: ds ∧ ∀ e ∈ d :: ds, decVal (decMin d ds) ≤ decVal e := by
  induction ds generalizing d with
  | nil => exact ⟨by simp [decMin], by simp [decMin]⟩
  | cons b bs ih =>
    rw [decMin]
    have hc := Dec.cmp_eq d b
    by_cases hg : (d.cmp b == .gt) = true
    · rw [if_pos hg]
      obtain ⟨h1, h2⟩ := ih b
      have hlt : decVal b < decVal d := by
        have : _root_.cmp (decVal d) (decVal b) = .gt := by rw [← hc]; simpa using hg
        exact cmp_eq_gt_iff _ _ |>.mp this
      refine ⟨by simp only [List.mem_cons] at h1 ⊢; tauto, ?_⟩
      intro e he
      rcases List.mem_cons.mp he with rfl | he
      · exact (h2 b (by simp)).trans hlt.le
      · exact h2 e he
    · rw [if_neg hg]
      obtain ⟨h1, h2⟩ := ih d
      have hle : decVal d ≤ decVal b := by
        by_contra hc'
        exact hg (by rw [hc, (cmp_eq_gt_iff _ _).mpr (not_le.mp hc')]; rfl)
      refine ⟨by simp only [List.mem_cons] at h1 ⊢; tauto, ?_⟩
      intro e he
      simp only [List.mem_cons] at he
      rcases he with rfl | rfl | he
      · exact h2 _ (by simp)
      · exact (h2 d (by simp)).trans hle
      · exact h2 e (by simp [he])

theorem decMax_spec (d : Dec) (ds : List Dec) :
    decMax d ds ∈ d :: ds ∧ ∀ e ∈ d :: ds, decVal e ≤ decVal (decMax d ds) := by
  induction ds generalizing d with
  | nil => exact ⟨by simp [decMax], by simp [decMax]⟩
  | cons b bs ih =>
    rw [decMax]
    have hc := Dec.cmp_eq d b
    by_cases hg : (d.cmp b == .lt) = true
    · rw [if_pos hg]
      obtain ⟨h1, h2⟩ := ih b
      have hlt : decVal d < decVal b := by
        have : _root_.cmp (decVal d) (decVal b) = .lt := by rw [← hc]; simpa using hg
        exact cmp_eq_lt_iff _ _ |>.mp this
      refine ⟨by simp only [List.mem_cons] at h1 ⊢; tauto, ?_⟩
      intro e he
      rcases List.mem_cons.mp he with rfl | he
      · exact hlt.le.trans (h2 b (by simp))
      · exact h2 e he
    · rw [if_neg hg]
      obtain ⟨h1, h2⟩ := ih d
      have hle : decVal b ≤ decVal d := by
        by_contra hc'
        exact hg (by rw [hc, (cmp_eq_lt_iff _ _).mpr (not_le.mp hc')]; rfl)
      refine ⟨by simp only [List.mem_cons] at h1 ⊢; tauto, ?_⟩
      intro e he
      simp only [List.mem_cons] at he
      rcases he with rfl | rfl | he
      · exact h2 _ (by simp)
      · exact hle.trans (h2 d (by simp))
      · exact h2 e (by simp [he])

theorem intMin_spec (n : ℤ) (ns : List ℤ) : Least (intMin n ns) (n :: ns) := by
  induction ns generalizing n with
  | nil => exact ⟨by simp [intMin], by simp [intMin]⟩
  | cons b bs ih =>
    rw [intMin]
    obtain ⟨h1, h2⟩ := ih (min n b)
    refine ⟨?_, ?_⟩
    · rcases List.mem_cons.mp h1 with h | h
      · rw [h]; rcases min_choice n b with h' | h' <;> rw [h'] <;> simp
      · simp [h]
    · intro e he
      have h3 := h2 (min n b) (by simp)
      simp only [List.mem_cons] at he
      rcases he with rfl | rfl | he
      · exact h3.trans (min_le_left _ _)
      · exact h3.trans (min_le_right _ _)
      · exact h2 e (by simp [he])

theorem intMax_spec (n : ℤ) (ns : List ℤ) : Greatest (intMax n ns) (n :: ns) := by
  induction ns generalizing n with
  | nil => exact ⟨by simp [intMax], by simp [intMax]⟩
  | cons b bs ih =>
    rw [intMax]
    obtain ⟨h1, h2⟩ := ih (max n b)
    refine ⟨?_, ?_⟩
    · rcases List.mem_cons.mp h1 with h | h
      · rw [h]; rcases max_choice n b with h' | h' <;> rw [h'] <;> simp
      · simp [h]
    · intro e he
      have h3 := h2 (max n b) (by simp)
      simp only [List.mem_cons] at he
      rcases he with rfl | rfl | he
      · exact (le_max_left _ _).trans h3
      · exact (le_max_right _ _).trans h3
      · exact h2 e (by simp [he])

theorem least_unique {α : Type} [PartialOrder α] {x y : α} {xs ys : List α} (hx : Least x xs) (hy : Least y ys)
    (h : xs.Perm ys) : x = y :=
  le_antisymm (hx.2 y (h.mem_iff.mpr hy.1)) (hy.2 x (h.mem_iff.mp hx.1))

theorem greatest_unique {α : Type} [PartialOrder α] {x y : α} {xs ys : List α} (hx : Greatest x xs)
    (hy : Greatest y ys) (h : xs.Perm ys) : x = y :=
  le_antisymm (hy.2 x (h.mem_iff.mp hx.1)) (hx.2 y (h.mem_iff.mpr hy.1))

theorem minFn_decimal {ws : List Value} {xs : List ℚ} (h : Numbers ws xs) (hd : HasDecimal ws) :
    ∃ x, Least x xs ∧ Returns (minFn (typed ws)) x := by
  obtain ⟨ds, h1, rfl⟩ := map_decs h
  unfold minFn
  rw [if_pos ((anyType_decimal h).mpr hd), h1, ok_bind]
  cases ds with
  | nil =>
    obtain ⟨w, hw, _⟩ := hd
    obtain ⟨x, hx, _⟩ := forall₂_mem_left h hw
    cases hx
  | cons d ds =>
    obtain ⟨h2, h3⟩ := decMin_spec d ds
    refine ⟨decVal (decMin d ds), ⟨List.mem_map_of_mem h2, ?_⟩, castDecimal_returns _⟩
    intro y hy
    obtain ⟨e, he, rfl⟩ := List.mem_map.mp hy
    exact h3 e he

theorem maxFn_decimal {ws : List Value} {xs : List ℚ} (h : Numbers ws xs) (hd : HasDecimal ws) :
    ∃ x, Greatest x xs ∧ Returns (maxFn (typed ws)) x := by
  obtain ⟨ds, h1, rfl⟩ := map_decs h
  unfold maxFn
  rw [if_pos ((anyType_decimal h).mpr hd), h1, ok_bind]
  cases ds with
  | nil =>
    obtain ⟨w, hw, _⟩ := hd
    obtain ⟨x, hx, _⟩ := forall₂_mem_left h hw
    cases hx
  | cons d ds =>
    obtain ⟨h2, h3⟩ := decMax_spec d ds
    refine ⟨decVal (decMax d ds), ⟨List.mem_map_of_mem h2, ?_⟩, castDecimal_returns _⟩
    intro y hy
    obtain ⟨e, he, rfl⟩ := List.mem_map.mp hy
    exact h3 e he

theorem minFn_whole {ws : List Value} {ns : List ℤ} (h : Wholes ws ns) (hne : ns ≠ []) :
    ∃ n, Least n ns ∧ minFn (typed ws) = .ok (castWhole (longToDouble n)) := by
  unfold minFn
  rw [if_neg (by rw [wholes_anyType h]; simp)]
  obtain ⟨n, ns, rfl⟩ := List.exists_cons_of_ne_nil hne
  refine ⟨intMin n ns, intMin_spec n ns, ?_⟩
  by_cases hl : anyType .long (typed ws) = true
  · rw [if_pos hl, map_longs h]; rfl
  · rw [if_neg hl, map_ints h (anyType_long h (by simpa using hl))]; rfl

theorem maxFn_whole {ws : List Value} {ns : List ℤ} (h : Wholes ws ns) (hne : ns ≠ []) :
    ∃ n, Greatest n ns ∧ maxFn (typed ws) = .ok (castWhole (longToDouble n)) := by
  unfold maxFn
  rw [if_neg (by rw [wholes_anyType h]; simp)]
  obtain ⟨n, ns, rfl⟩ := List.exists_cons_of_ne_nil hne
  refine ⟨intMax n ns, intMax_spec n ns, ?_⟩
  by_cases hl : anyType .long (typed ws) = true
  · rw [if_pos hl, map_longs h]; rfl
  · rw [if_neg hl, map_ints h (anyType_long h (by simpa using hl))]; rfl

/-! ### SUM and AVG -/

theorem wrap64_add (a b : ℤ) : wrap64 (wrap64 a + b) = wrap64 (a + b) := by
  unfold wrap64; omega

theorem longSum_go (ns : List ℤ) (a : ℤ) :
    ns.foldl (fun acc x => wrap64 (acc + x)) (wrap64 a) = wrap64 (a + ns.sum) := by
  induction ns generalizing a with
  | nil => simp
  | cons n ns ih =>
    rw [List.foldl_cons, wrap64_add, ih, List.sum_cons, add_assoc]

theorem longSum_eq (ns : List ℤ) : longSum ns = wrap64 ns.sum := by
  have := longSum_go ns 0
  rw [zero_add] at this
  exact this

theorem decSum_go (ds : List Dec) (a : Dec) : decVal (ds.foldl Dec.add a) = decVal a + (ds.map decVal).sum := by
  induction ds generalizing a with
  | nil => simp
  | cons d ds ih => rw [List.foldl_cons, ih, decVal_add, List.map_cons, List.sum_cons, add_assoc]

theorem decSum_val (ds : List Dec) : decVal (decSum ds) = (ds.map decVal).sum := by
  unfold decSum
  rw [decSum_go]; simp [decVal]

theorem decVal_inj {a b : Dec} (hs : a.scale = b.scale) (hv : decVal a = decVal b) : a = b := by
  unfold decVal at hv
  rw [hs] at hv
  have := mul_right_cancel₀ (ten_zpow_pos (-b.scale)).ne' hv
  cases a; cases b
  simp only at hs this
  subst hs
  congr 1
  exact_mod_cast this

theorem Dec.add_right_comm' (a b c : Dec) : (a.add b).add c = (a.add c).add b := by
  apply decVal_inj
  · show max (max a.scale b.scale) c.scale = max (max a.scale c.scale) b.scale
    exact max_right_comm _ _ _
  · rw [decVal_add, decVal_add, decVal_add, decVal_add]; ring

theorem decSum_perm {xs ys : List Dec} (h : xs.Perm ys) : decSum xs = decSum ys := by
  haveI : RightCommutative Dec.add := ⟨Dec.add_right_comm'⟩
  exact h.foldl_eq _

theorem divExact_val (a b : Dec) (hb : decVal b ≠ 0) (sc : ℤ) :
    ((∃ k : ℤ, decVal a / decVal b * 10 ^ sc = k) →
      ∃ d, a.divExact b sc = .ok d ∧ decVal d = decVal a / decVal b) ∧
    ((∀ k : ℤ, decVal a / decVal b * 10 ^ sc ≠ k) → a.divExact b sc = .error .arithmetic) := by
  have hu : b.unscaled ≠ 0 := fun h => hb ((decVal_eq_zero b).mpr h)
  have hbu : (b.unscaled : ℚ) ≠ 0 := by exact_mod_cast hu
  have hq : (Dec.quotParts a b sc).2 ≠ 0 ∧
      ((Dec.quotParts a b sc).1 : ℚ) / (Dec.quotParts a b sc).2 = decVal a / decVal b * 10 ^ sc := by
    unfold Dec.quotParts
    simp only
    split
    · rename_i he
      refine ⟨hu, ?_⟩
      push_cast
      rw [p10_cast, Int.toNat_of_nonneg he]
      unfold decVal
      rw [zpow_sub₀ (by norm_num), zpow_add₀ (by norm_num), zpow_neg, zpow_neg]
      have h1 := (ten_zpow_pos a.scale).ne'
      have h2 := (ten_zpow_pos b.scale).ne'
      field_simp
    · rename_i he
      have hp := Dec.p10_pos (-(sc + b.scale - a.scale)).toNat
      refine ⟨mul_ne_zero hu hp.ne', ?_⟩
      push_cast
      rw [p10_cast, Int.toNat_of_nonneg (by omega)]
      unfold decVal
      rw [neg_sub, zpow_sub₀ (by norm_num), zpow_add₀ (by norm_num), zpow_neg, zpow_neg]
      have h1 := (ten_zpow_pos a.scale).ne'
      have h2 := (ten_zpow_pos b.scale).ne'
      have h3 := (ten_zpow_pos sc).ne'
      field_simp
  unfold Dec.divExact
  rw [if_neg hu]
  simp only
  generalize (Dec.quotParts a b sc).1 = p at hq
  generalize (Dec.quotParts a b sc).2 = q at hq
  obtain ⟨hq0, hq⟩ := hq
  have hq0' : (q : ℚ) ≠ 0 := by exact_mod_cast hq0
  have key := Int.mul_tdiv_add_tmod p q
  constructor
  · rintro ⟨k, hk⟩
    rw [← hq, div_eq_iff hq0'] at hk
    have hk' : p = k * q := by exact_mod_cast hk
    have hm : p.tmod q = 0 := by rw [hk']; exact Int.mul_tmod_left k q
    rw [if_pos hm]
    refine ⟨_, rfl, ?_⟩
    unfold decVal at hq ⊢
    simp only
    have ht : p.tdiv q = k := by rw [hk']; exact Int.mul_tdiv_cancel k hq0
    rw [ht]
    have : (p : ℚ) / q = k := by rw [hk']; push_cast; field_simp
    rw [this] at hq
    rw [hq, mul_assoc, ← zpow_add₀ (by norm_num)]
    simp
  · intro hk
    have hm : p.tmod q ≠ 0 := by
      intro hm
      rw [hm, add_zero] at key
      apply hk (p.tdiv q)
      rw [← hq, div_eq_iff hq0']
      have : (p : ℚ) = q * (p.tdiv q) := by exact_mod_cast key.symm
      rw [this]; ring
    rw [if_neg hm]

end BoolParser
