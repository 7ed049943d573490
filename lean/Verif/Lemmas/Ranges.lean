import Verif.Lemmas.NonNull
import Verif.Lemmas.Lists
import Verif.Lemmas.Listening
import Verif.Spec.Ranges
import Mathlib.Tactic.Linarith
/-!
# Results stay in range
-/

namespace BoolParser
open Spec

/-- A successful outcome satisfies `P`. -/
def Yields {α : Type} (P : α → Prop) (r : Result α) : Prop := ∀ a, r = .ok a → P a

theorem yields_err {α : Type} {P : α → Prop} (e : Exn) : Yields P (.error e : Result α) := by intro v h; cases h

theorem yields_ok {α : Type} {P : α → Prop} {a : α} (h : P a) : Yields P (.ok a : Result α) := by
  intro w e; injection e with e; rw [← e]; exact h

theorem yields_bind {α β : Type} {P : α → Prop} {Q : β → Prop} {r : Result α} {f : α → Result β} (hr : Yields P r)
    (h : ∀ a, P a → Yields Q (f a)) : Yields Q (r >>= f) := by
  cases r with
  | ok a => exact h a (hr a rfl)
  | error e => exact yields_err e

theorem yields_bind' {α β : Type} {Q : β → Prop} {r : Result α} {f : α → Result β}
    (h : ∀ a, Yields Q (f a)) : Yields Q (r >>= f) :=
  yields_bind (P := fun _ => True) (fun _ _ => trivial) fun a _ => h a

theorem yields_ite {α : Type} {P : α → Prop} {c : Prop} [Decidable c] {a b : Result α} (ha : Yields P a)
    (hb : Yields P b) : Yields P (if c then a else b) := by
  split <;> assumption

theorem castLong_range {n : Int} (h : InInt64 n) : InRange (castLong n) := by
  unfold castLong
  split
  · rename_i h32; exact h32
  · exact h

theorem castWhole_range (n : Int) : InRange (castWhole n) := by
  unfold castWhole
  split
  · rename_i h; exact h
  · trivial

theorem intValueExact_in (d : Dec) : Yields InInt32 (intValueExact d) := by
  unfold intValueExact
  split
  · rename_i h; exact yields_ok h.2
  · exact yields_err _

theorem castDecimal_range (d : Dec) : Yields InRange (castDecimal d) := by
  unfold castDecimal
  exact yields_ite (yields_bind (intValueExact_in d) fun n hn => yields_ok hn) (yields_ok trivial)

theorem castDouble_range (d : Dbl) : Yields InRange (castDouble d) := by
  unfold castDouble
  split
  · exact yields_err _
  · exact yields_err _
  · apply yields_ok
    split
    · rename_i h; exact h.2
    · trivial

theorem toInt32_in {o : Option Dec} {n : Int} (h : o.bind Dec.toInt32? = some n) : InInt32 n := by
  cases o with
  | none => cases h
  | some d =>
    simp only [Option.bind_some, Dec.toInt32?] at h
    split at h
    · split at h
      · rename_i hin; injection h with h; rw [← h]; exact hin
      · cases h
    · cases h

theorem toInt64_in {o : Option Dec} {n : Int} (h : o.bind Dec.toInt64? = some n) : InInt64 n := by
  cases o with
  | none => cases h
  | some d =>
    simp only [Option.bind_some, Dec.toInt64?] at h
    split at h
    · split at h
      · rename_i hin; injection h with h; rw [← h]; exact hin
      · cases h
    · cases h

theorem getOpt_asInt {v : Value} (hv : InRange v) : Yields InInt32 (getOpt (asInt v)) := by
  intro n h
  have key : asInt v = .ok (some n) := by
    generalize asInt v = r at h
    match r, h with
    | .ok (some m), h => injection h with h; rw [h]
  cases v with
  | int m => injection key with key; injection key with key; rw [← key]; exact hv
  | null => cases key
  | _ => injection key with key; exact toInt32_in key

theorem getOpt_asLong {v : Value} (hv : InRange v) : Yields InInt64 (getOpt (asLong v)) := by
  intro n h
  have key : asLong v = .ok (some n) := by
    generalize asLong v = r at h
    match r, h with
    | .ok (some m), h => injection h with h; rw [h]
  cases v with
  | long m => injection key with key; injection key with key; rw [← key]; exact hv
  | null => cases key
  | _ => injection key with key; exact toInt64_in key

theorem tmod_abs (a b : Int) : |a.tmod b| ≤ |a| := by
  rw [Int.abs_eq_natAbs, Int.abs_eq_natAbs, Int.natAbs_tmod]
  exact_mod_cast Nat.mod_le _ _

theorem tmod_in32 {a : Int} (b : Int) (h : InInt32 a) : InInt32 (a.tmod b) := by
  by_cases ha : 0 ≤ a
  · have h1 := tmod_abs a b
    have h2 := Int.tmod_nonneg b ha
    rw [abs_of_nonneg h2, abs_of_nonneg ha] at h1
    unfold InInt32 at *; omega
  · have h1 := tmod_abs a b
    have h2 : a.tmod b ≤ 0 := by
      have := Int.tmod_nonneg b (a := -a) (by omega)
      rw [Int.neg_tmod] at this; omega
    rw [abs_of_nonpos h2, abs_of_nonpos (by omega)] at h1
    unfold InInt32 at *; omega

theorem tmod_in64 {a : Int} (b : Int) (h : InInt64 a) : InInt64 (a.tmod b) := by
  by_cases ha : 0 ≤ a
  · have h1 := tmod_abs a b
    have h2 := Int.tmod_nonneg b ha
    rw [abs_of_nonneg h2, abs_of_nonneg ha] at h1
    unfold InInt64 at *; omega
  · have h1 := tmod_abs a b
    have h2 : a.tmod b ≤ 0 := by
      have := Int.tmod_nonneg b (a := -a) (by omega)
      rw [Int.neg_tmod] at this; omega
    rw [abs_of_nonpos h2, abs_of_nonpos (by omega)] at h1
    unfold InInt64 at *; omega

theorem evalArithOp_range (env : Env) (op : ArithOp) {l : Value} (lt : DataType) {r : Value} (rt : DataType)
    (hl : InRange l) : Yields InRange (evalArithOp env op l lt r rt) := by
  cases op <;> simp only [evalArithOp]
  · exact yields_ite (yields_ok trivial) (yields_ite (yields_bind' fun _ => yields_bind' fun _ => yields_ok trivial)
      (yields_bind' fun _ => yields_bind' fun _ => yields_ok (castLong_range (wrap64_in _))))
  · exact yields_ite (yields_bind' fun _ => yields_bind' fun _ => yields_ok trivial)
      (yields_ite (yields_bind' fun _ => yields_bind' fun _ => yields_ok (wrap64_in _))
        (yields_bind' fun _ => yields_bind' fun _ => yields_ok (wrap32_in _)))
  · exact yields_ite (yields_bind' fun _ => yields_bind' fun _ => yields_ok trivial)
      (yields_bind' fun _ => yields_bind' fun _ => yields_ok (castLong_range (wrap64_in _)))
  · exact yields_bind' fun _ => yields_bind' fun _ => yields_bind' fun _ => castDecimal_range _
  · refine yields_ite (yields_bind (getOpt_asLong hl) fun a ha => yields_bind' fun b => ?_)
      (yields_bind (getOpt_asInt hl) fun a ha => yields_bind' fun b => ?_)
    · split
      · exact yields_err _
      · exact yields_ok (tmod_in64 b ha)
    · split
      · exact yields_err _
      · exact yields_ok (tmod_in32 b ha)
  · exact yields_ite (yields_bind' fun _ => yields_bind' fun _ => castDouble_range _)
      (yields_bind' fun _ => yields_bind' fun _ => castDouble_range _)

theorem arithBinary_range (env : Env) (op : ArithOp) {l : Value} (lt : DataType) {r : Value} (rt : DataType)
    (hl : InRange l) : Yields InRange (arithBinary env op l lt r rt) := by
  rw [arithBinary_eq]
  exact yields_ite (yields_err _) (yields_bind' fun _ => yields_ite (yields_err _) (yields_ite (yields_err _)
    (yields_bind' fun _ => yields_ite (yields_err _) (evalArithOp_range _ _ _ _ hl))))

theorem arithNegate_range (v : Value) (t : DataType) : Yields InRange (arithNegate v t) := by
  rw [arithNegate_eq]
  refine yields_ite (yields_err _) (yields_bind' fun _ => yields_ite (yields_err _) ?_)
  unfold evalNeg
  split
  · exact yields_ok trivial
  · exact yields_err _
  · exact yields_ok (wrap64_in _)
  · exact yields_err _
  · exact yields_ok (wrap32_in _)
  · exact yields_err _

/-! ### Dates -/

theorem leaps_bound {y : Int} (h : -999999999 ≤ y ∧ y ≤ 999999999) {m : Int} (hm : 0 < m) :
    -999999999 ≤ y.tdiv (-m) ∧ y.tdiv (-m) ≤ 999999999 := by
  have h1 : |y.tdiv (-m)| ≤ |y| := by
    rw [Int.abs_eq_natAbs, Int.abs_eq_natAbs, Int.natAbs_tdiv]
    exact_mod_cast Nat.div_le_self _ _
  have h2 : |y| ≤ 999999999 := abs_le.mpr h
  exact abs_le.mp (le_trans h1 h2)

theorem epochDay_bound {d : Date} (h : DateInRange d) :
    -1000000000000 ≤ epochDay d ∧ epochDay d ≤ 1000000000000 := by
  obtain ⟨h1, h2, h3, h4, h5, h6⟩ := h
  have a1 := leaps_bound ⟨h1, h2⟩ (m := 4) (by decide)
  have a2 := leaps_bound ⟨h1, h2⟩ (m := 100) (by decide)
  have a3 := leaps_bound ⟨h1, h2⟩ (m := 400) (by decide)
  have hm : 0 ≤ (367 * (d.month : Int) - 362).tdiv 12 ∧ (367 * (d.month : Int) - 362).tdiv 12 ≤ 400 := by
    rw [Int.tdiv_eq_ediv_of_nonneg (by omega)]; omega
  unfold epochDay
  simp only
  by_cases hy : 0 ≤ d.year
  · rw [if_pos hy, Int.tdiv_eq_ediv_of_nonneg (a := d.year + 3) (by omega),
      Int.tdiv_eq_ediv_of_nonneg (a := d.year + 99) (by omega), Int.tdiv_eq_ediv_of_nonneg (a := d.year + 399) (by omega)]
    split
    · split <;> omega
    · omega
  · rw [if_neg hy]
    split
    · split <;> omega
    · omega

theorem days_in {a b : Date} (ha : DateInRange a) (hb : DateInRange b) : InInt64 (epochDay a - epochDay b) := by
  have h1 := epochDay_bound ha
  have h2 := epochDay_bound hb
  unfold InInt64; omega

theorem monthLen_bounds (y : Int) (m : Nat) : monthLen y m ≤ 31 ∧ 28 ≤ monthLen y m := by
  unfold monthLen
  split
  · omega
  · split
    · split <;> omega
    · omega

theorem natOfDigits_four {ds : JStr} (h : ds.all isDigit = true) (hl : ds.length = 4) : natOfDigits 0 ds ≤ 9999 := by
  have hd : ∀ c ∈ ds, digitVal c ≤ 9 := by
    intro c hc
    have := List.all_eq_true.mp h c hc
    unfold isDigit at this
    simp only [Bool.and_eq_true, decide_eq_true_eq] at this
    unfold digitVal; omega
  match ds, hl with
  | [a, b, c, d], _ =>
    have h1 := hd a (by simp)
    have h2 := hd b (by simp)
    have h3 := hd c (by simp)
    have h4 := hd d (by simp)
    simp only [natOfDigits]; omega

theorem parseIsoYear_bound {s r : JStr} {y : Int} (h : parseIsoYear s = some (y, r)) :
    -999999999 ≤ y ∧ y ≤ 999999999 := by
  unfold parseIsoYear at h
  split at h
  · simp only at h
    split at h
    · injection h with h; injection h with h _; omega
    · cases h
  · simp only at h
    split at h
    · injection h with h; injection h with h _; omega
    · cases h
  · rename_i cs _ _
    simp only at h
    split at h
    · rename_i hl
      have hd : ((s.takeWhile isDigit).take 10).all isDigit = true := by
        rw [List.all_eq_true]
        intro c hc
        exact List.all_eq_true.mp List.all_takeWhile c (List.mem_of_mem_take hc)
      have := natOfDigits_four hd hl
      injection h with h; injection h with h _; omega
    · cases h

theorem bind_some' {α β : Type} {x : Option α} {f : α → Option β} {b : β} (h : (x >>= f) = some b) :
    ∃ a, x = some a ∧ f a = some b := by
  cases x with
  | none => cases h
  | some a => exact ⟨a, rfl, h⟩

theorem parseIsoDate_range {s : JStr} {d : Date} (h : parseIsoDate s = some d) : DateInRange d := by
  unfold parseIsoDate at h
  obtain ⟨⟨y, s1⟩, hp, h⟩ := bind_some' h
  obtain ⟨s2, _, h⟩ := bind_some' h
  obtain ⟨⟨m, s3⟩, _, h⟩ := bind_some' h
  obtain ⟨s4, _, h⟩ := bind_some' h
  obtain ⟨⟨dd, s5⟩, _, h⟩ := bind_some' h
  have hy := parseIsoYear_bound hp
  simp only at h
  split at h
  · rename_i hc
    injection h with h
    have := monthLen_bounds y m
    rw [← h]
    exact ⟨hy.1, hy.2, hc.2.1, hc.2.2.1, hc.2.2.2.1, by simp only; omega⟩
  · cases h

theorem parseYearOfEra_bound {s r : JStr} {y : Nat} (h : parseYearOfEra s = some (y, r)) : y ≤ 999999999 := by
  unfold parseYearOfEra at h
  split at h
  · cases h
  · simp only at h
    split at h
    · injection h with h; injection h with h _; omega
    · cases h
  · simp only at h
    split at h
    · injection h with h; injection h with h _; omega
    · cases h

theorem parseDatePart_range {s r : JStr} {d : Date} (h : parseDatePart s = some (d, r)) : DateInRange d := by
  unfold parseDatePart at h
  obtain ⟨⟨y, s1⟩, hp, h⟩ := bind_some' h
  obtain ⟨s2, _, h⟩ := bind_some' h
  obtain ⟨⟨m, s3⟩, _, h⟩ := bind_some' h
  obtain ⟨s4, _, h⟩ := bind_some' h
  obtain ⟨⟨dd, s5⟩, _, h⟩ := bind_some' h
  obtain ⟨d', hd', h⟩ := bind_some' h
  have hy := parseYearOfEra_bound hp
  injection h with h
  injection h with h _
  unfold resolveSmart at hd'
  split at hd'
  · rename_i hc
    injection hd' with hd'
    have := monthLen_bounds y m
    rw [← h, ← hd']
    refine ⟨by simp only; omega, by simp only; omega, hc.1, hc.2.1, ?_, ?_⟩
    · simp only; omega
    · simp only; omega
  · cases hd'

theorem parseDate_range {s : JStr} {d : Date} (h : parseDate s = some d) : DateInRange d := by
  unfold parseDate at h
  split at h
  · rename_i d' hp
    injection h with h
    rw [← h]; exact parseDatePart_range hp
  · cases h

theorem nextDay_range {d : Date} (h : DateInRange d) (hy : (nextDay d).year ≤ 999999999) : DateInRange (nextDay d) := by
  obtain ⟨h1, h2, h3, h4, h5, h6⟩ := h
  have hm := monthLen_bounds d.year d.month
  unfold nextDay at hy ⊢
  unfold DateInRange
  split
  · exact ⟨h1, h2, h3, h4, by simp only; omega, by simp only; omega⟩
  · rename_i hd
    rw [if_neg hd] at hy
    split
    · exact ⟨h1, h2, by simp only; omega, by simp only; omega, by simp, by simp⟩
    · rename_i hmo
      rw [if_neg hmo] at hy
      exact ⟨by simp only; omega, hy, by simp, by simp, by simp, by simp⟩

theorem parseDateTime_range {s : JStr} {t : DateTime} (h : parseDateTime s = some t) : DateInRange t.date := by
  unfold parseDateTime at h
  obtain ⟨⟨d, s1⟩, hp, h⟩ := bind_some' h
  obtain ⟨s2, _, h⟩ := bind_some' h
  obtain ⟨⟨hh, s3⟩, _, h⟩ := bind_some' h
  obtain ⟨s4, _, h⟩ := bind_some' h
  obtain ⟨⟨m, s5⟩, _, h⟩ := bind_some' h
  obtain ⟨s6, _, h⟩ := bind_some' h
  obtain ⟨⟨sec, s7⟩, _, h⟩ := bind_some' h
  have hd := parseDatePart_range hp
  simp only at h
  split at h
  · cases h
  · split at h
    · split at h
      · rename_i hy; injection h with h; rw [← h]; exact nextDay_range hd hy
      · cases h
    · split at h
      · injection h with h; rw [← h]; exact hd
      · cases h

/-! ### Literals -/

theorem parseInt32_in {s : JStr} {n : Int} (h : parseInt32 s = some n) : InInt32 n := by
  unfold parseInt32 at h
  split at h
  · split at h
    · rename_i hin; injection h with h; rw [← h]; exact hin
    · cases h
  · cases h

theorem parseInt64_in {s : JStr} {n : Int} (h : parseInt64 s = some n) : InInt64 n := by
  unfold parseInt64 at h
  split at h
  · split at h
    · rename_i hin; injection h with h; rw [← h]; exact hin
    · cases h
  · cases h

theorem convertValue_range (s : JStr) (t : DataType) : Yields InRange (convertValue s t) := by
  cases t <;> simp only [convertValue]
  · exact yields_ite (yields_bind' fun _ => yields_ok trivial)
      (yields_ite (yields_bind' fun _ => yields_ok trivial) (yields_ok trivial))
  · split
    · rename_i h; exact yields_ok (parseInt32_in h)
    · exact yields_err _
  · split
    · rename_i h; exact yields_ok (parseInt64_in h)
    · exact yields_err _
  · split
    · exact yields_ok trivial
    · exact yields_err _
  · exact yields_ok trivial
  · exact yields_ok trivial
  · apply yields_ok
    split
    · rename_i h; exact parseDate_range h
    · trivial
  · apply yields_ok
    split
    · rename_i h; exact parseDateTime_range h
    · trivial

/-! ### Data -/

theorem allInRange_iff (vs : List Value) : AllInRange vs ↔ ∀ v ∈ vs, InRange v := by
  induction vs with
  | nil => simp [AllInRange]
  | cons v vs ih => simp [AllInRange, ih]

theorem mapGet_range {d : Data} (h : EntriesInRange d) {k : JStr} {v : Value} (hv : mapGet d k = some v) :
    InRange v := by
  induction d with
  | nil => cases hv
  | cons e es ih =>
    obtain ⟨k', w⟩ := e
    rw [EntriesInRange] at h
    rw [mapGet] at hv
    split at hv
    · injection hv with hv; rw [← hv]; exact h.1
    · exact ih h.2 hv

theorem walkKeys_range (ks : List JStr) {d : Data} (h : EntriesInRange d) :
    Yields (fun o => ∀ v, o = some v → InRange v) (walkKeys ks d) := by
  induction ks generalizing d with
  | nil => exact yields_err _
  | cons k ks ih =>
    cases ks with
    | nil =>
      rw [walkKeys]
      split
      · exact yields_ok (by intro v e; cases e)
      · exact yields_ok (by intro v e; cases e)
      · rename_i v hn hg
        exact yields_ok (by intro w e; injection e with e; rw [← e]; exact mapGet_range h hg)
    | cons k2 ks =>
      rw [walkKeys]
      split
      · rename_i es hg
        exact ih (d := es) (by have := mapGet_range h hg; rw [InRange] at this; exact this)
      · exact yields_ok (by intro v e; cases e)

theorem requireField_range (f : Option JStr) {d : Data} (h : EntriesInRange d) : Yields InRange (requireField f d) := by
  unfold requireField
  refine yields_bind (P := fun o => ∀ v, o = some v → InRange v) ?_ fun o ho => ?_
  · unfold lookupField
    cases f with
    | none => exact yields_err _
    | some k => exact walkKeys_range _ h
  · cases o with
    | none => exact yields_err _
    | some v => exact yields_ok (ho v rfl)

/-! ### Functions -/

theorem flattenItems_range {vs : List Value} (h : ∀ v ∈ vs, InRange v) : ∀ x ∈ flattenItems vs, InRange x.1 := by
  induction vs with
  | nil => intro x hx; cases hx
  | cons v vs ih =>
    intro x hx
    rw [flattenItems_cons] at hx
    rcases List.mem_append.mp hx with hx | hx
    · have hv := h v (by simp)
      split at hx
      · obtain ⟨y, hy, rfl⟩ := List.mem_map.mp hx
        rw [InRange, allInRange_iff] at hv; exact hv y hy
      · obtain ⟨y, hy, rfl⟩ := List.mem_map.mp hx
        rw [InRange, allInRange_iff] at hv; exact hv y hy
      · simp only [List.mem_singleton] at hx; rw [hx]; exact hv
    · exact ih (fun w hw => h w (by simp [hw])) x hx

/-- LEN's answer fits. -/
def LenOk (items : List Typed) : Prop :=
  items.length ≤ 2147483647 ∧ ∀ s t, items = [(.str s, t)] → jlength s ≤ 2147483647

theorem callFn_range {env : Env} (ht : DateInRange env.today) (f : FuncType) {items : List Typed}
    (h : ∀ x ∈ items, InRange x.1) (hl : f = .len → LenOk items) : Yields InRange (callFn env f items) := by
  rw [callFn_eq]
  refine yields_ite (yields_err _) (yields_ite (yields_err _) (yields_ite (yields_err _) (yields_bind' fun _ => ?_)))
  cases f <;> simp only [evalFn]
  · unfold minFn
    refine yields_ite (yields_bind' fun ds => ?_) (yields_ite (yields_bind' fun ds => ?_) (yields_bind' fun ds => ?_))
    all_goals
      cases ds with
      | nil => exact yields_err _
      | cons d ds => first | exact castDecimal_range _ | exact yields_ok (castWhole_range _)
  · unfold maxFn
    refine yields_ite (yields_bind' fun ds => ?_) (yields_ite (yields_bind' fun ds => ?_) (yields_bind' fun ds => ?_))
    all_goals
      cases ds with
      | nil => exact yields_err _
      | cons d ds => first | exact castDecimal_range _ | exact yields_ok (castWhole_range _)
  · unfold avgFn
    exact yields_ite (yields_bind' fun ds => yields_bind' fun _ => castDecimal_range _)
      (yields_bind' fun ds => yields_bind' fun _ => castDecimal_range _)
  · unfold sumFn
    exact yields_ite (yields_bind' fun ds => castDecimal_range _) (yields_bind' fun ds => yields_ok (castWhole_range _))
  · unfold avgFn
    exact yields_ite (yields_bind' fun ds => yields_bind' fun _ => castDecimal_range _)
      (yields_bind' fun ds => yields_bind' fun _ => castDecimal_range _)
  · cases items with
    | nil => exact yields_err _
    | cons x xs =>
      unfold modeFn
      split
      · rename_i heq; cases heq
      rename_i y ys heq
      injection heq with h1 h2
      subst h1 h2
      obtain ⟨y, hy, hy2⟩ := List.mem_map.mp (modeGo_item x xs)
      have h3 := h y hy
      rw [← hy2]
      split
      · exact castDecimal_range _
      · rename_i n e; rw [e] at h3; exact yields_ok (castLong_range h3)
      · exact yields_ok h3
  · unfold medianFn
    exact yields_bind' fun ds => yields_ite (yields_bind' fun _ => yields_bind' fun _ => yields_bind' fun _ =>
      castDecimal_range _) (yields_bind' fun _ => castDecimal_range _)
  · unfold intFn
    cases items with
    | nil => exact yields_err _
    | cons x xs =>
      obtain ⟨v, t⟩ := x
      simp only
      refine yields_ite (yields_bind' fun _ => yields_ok (wrap32_in _)) (yields_ite ?_ (yields_ok (h (v, t) (by simp))))
      split
      · exact yields_ok (wrap32_in _)
      · exact yields_err _
  · obtain ⟨h1, h2⟩ := hl rfl
    unfold lenFn
    split
    · rename_i s t
      have := h2 s t rfl
      exact yields_ok (by show InInt32 _; unfold InInt32; omega)
    · exact yields_ok (by show InInt32 _; unfold InInt32; omega)
  · unfold daysFn
    split
    · rename_i dd t
      exact yields_ok (days_in ht (h (.date dd, t) (by simp)))
    · split
      · rename_i dd hd
        exact yields_ok (days_in ht (parseIsoDate_range hd))
      · exact yields_err _
    · exact yields_err _
    · exact yields_err _

end BoolParser
