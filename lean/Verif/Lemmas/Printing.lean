import Verif.Lemmas.Mixed
import Verif.Lemmas.NumText
import Verif.Spec.Printing
/-!
# The printed forms of the model are the printed forms
-/

namespace BoolParser
open Spec

/-! ### Digits -/

theorem val_inj {c d : Char} (hc : isDigit c = true) (hd : isDigit d = true) (h : digitVal c = digitVal d) : c = d := by
  unfold isDigit at hc hd; unfold digitVal at h
  simp only [Bool.and_eq_true, decide_eq_true_eq] at hc hd
  exact Char.toNat_inj.mp (by omega)

theorem nat_cons (c : Char) (s : JStr) : natOfDigits 0 (c :: s) = digitVal c * 10 ^ s.length + natOfDigits 0 s := by
  show natOfDigits (0 * 10 + digitVal c) s = _
  rw [natOfDigits_acc]; simp

theorem digits_inj {a b : JStr} (ha : a.all isDigit = true) (hb : b.all isDigit = true) (hl : a.length = b.length)
    (hv : natOfDigits 0 a = natOfDigits 0 b) : a = b := by
  induction a generalizing b with
  | nil => cases b with
    | nil => rfl
    | cons d ds => cases hl
  | cons c cs ih =>
    cases b with
    | nil => cases hl
    | cons d ds =>
      simp only [List.all_cons, Bool.and_eq_true] at ha hb
      have hl : cs.length = ds.length := by simpa using hl
      rw [nat_cons, nat_cons, hl] at hv
      have h1 := natOfDigits_lt ha.2
      have h2 := natOfDigits_lt hb.2
      rw [hl] at h1
      have hp : 0 < 10 ^ ds.length := by positivity
      have e1 : digitVal c = digitVal d := by
        have := congrArg (· / 10 ^ ds.length) hv
        rw [Nat.add_comm, Nat.add_mul_div_right _ _ hp, Nat.add_comm (digitVal d * _), Nat.add_mul_div_right _ _ hp,
          Nat.div_eq_of_lt h1, Nat.div_eq_of_lt h2] at this
        omega
      rw [e1] at hv
      rw [val_inj ha.1 hb.1 e1, ih ha.2 hb.2 hl (by omega)]

theorem fixed_unique {w n : ℕ} {a b : JStr} (ha : FixedDigits w n a) (hb : FixedDigits w n b) : a = b :=
  digits_inj ha.1 hb.1 (ha.2.1.trans hb.2.1.symm) (by rw [← digitsValue_eq, ← digitsValue_eq, ha.2.2, hb.2.2])

theorem zero_val : digitVal '0' = 0 := by krfl

/-- Without leading zeros the length is given by the value. -/
theorem plain_bounds {n : ℕ} {ds : JStr} (h : PlainDigits n ds) (hn : 0 < n) :
    10 ^ (ds.length - 1) ≤ n ∧ n < 10 ^ ds.length := by
  obtain ⟨h1, h2, h3⟩ := h
  rw [digitsValue_eq] at h3
  refine ⟨?_, by rw [← h3]; exact natOfDigits_lt h1.2⟩
  cases ds with
  | nil => exact absurd rfl h1.1
  | cons c cs =>
    have hc : c ≠ '0' := by
      rcases h2 with h2 | h2
      · rw [h2, show natOfDigits 0 ['0'] = 0 by krfl] at h3; omega
      · rintro rfl; exact h2 rfl
    have hd := h1.2
    simp only [List.all_cons, Bool.and_eq_true] at hd
    have : digitVal c ≠ 0 := fun e => hc (val_inj hd.1 rfl (e.trans zero_val.symm))
    rw [nat_cons] at h3
    have : 10 ^ cs.length * 1 ≤ 10 ^ cs.length * digitVal c := Nat.mul_le_mul_left _ (by omega)
    simp only [List.length_cons, Nat.add_sub_cancel]
    rw [Nat.mul_comm (digitVal c)] at h3
    omega

theorem plain_zero {ds : JStr} (h : PlainDigits 0 ds) : ds = ['0'] := by
  obtain ⟨h1, h2, h3⟩ := h
  rcases h2 with h2 | h2
  · exact h2
  · cases ds with
    | nil => exact absurd rfl h1.1
    | cons c cs =>
      have hd := h1.2
      simp only [List.all_cons, Bool.and_eq_true] at hd
      rw [digitsValue_eq, nat_cons] at h3
      have hp : 0 < 10 ^ cs.length := by positivity
      have : digitVal c = 0 := by
        have := (Nat.add_eq_zero_iff.mp h3).1
        rcases Nat.mul_eq_zero.mp this with h | h
        · exact h
        · omega
      rw [val_inj hd.1 (d := '0') rfl (this.trans zero_val.symm)] at h2
      exact absurd rfl h2

theorem plain_length {n : ℕ} {a b : JStr} (ha : PlainDigits n a) (hb : PlainDigits n b) : a.length = b.length := by
  rcases Nat.eq_zero_or_pos n with rfl | hn
  · rw [plain_zero ha, plain_zero hb]
  · have h1 := plain_bounds ha hn
    have h2 := plain_bounds hb hn
    have la : 0 < a.length := List.length_pos_iff.mpr ha.1.1
    have lb : 0 < b.length := List.length_pos_iff.mpr hb.1.1
    have p1 := (Nat.pow_lt_pow_iff_right (a := 10) (by norm_num)).mp (lt_of_le_of_lt h1.1 h2.2)
    have p2 := (Nat.pow_lt_pow_iff_right (a := 10) (by norm_num)).mp (lt_of_le_of_lt h2.1 h1.2)
    omega

theorem plain_unique {n : ℕ} {a b : JStr} (ha : PlainDigits n a) (hb : PlainDigits n b) : a = b :=
  digits_inj ha.1.2 hb.1.2 (plain_length ha hb) (by rw [← digitsValue_eq, ← digitsValue_eq, ha.2.2, hb.2.2])

theorem plain_natStr (n : ℕ) : PlainDigits n (natStr n) := by
  refine ⟨natStr_isDigits n, ?_, by rw [digitsValue_eq, natOfDigits_natStr]⟩
  rcases Nat.eq_zero_or_pos n with rfl | hn
  · exact .inl rfl
  · obtain ⟨c, cs, h, hc⟩ := natStr_head hn
    right; rw [h]; intro e; injection e with e; exact hc e

theorem natStr_length_le {n w : ℕ} (hw : 0 < w) (h : n < 10 ^ w) : (natStr n).length ≤ w := by
  rcases Nat.eq_zero_or_pos n with rfl | hn
  · exact hw
  · have h1 := (plain_bounds (plain_natStr n) hn).1
    have := (Nat.pow_lt_pow_iff_right (a := 10) (by norm_num)).mp (lt_of_le_of_lt h1 h)
    omega

theorem fixed_padNat {w n : ℕ} (hw : 0 < w) (h : n < 10 ^ w) : FixedDigits w n (padNat w n) := by
  refine ⟨(padNat_digits w n).2, ?_, ?_⟩
  · have := natStr_length_le hw h
    unfold padNat; rw [List.length_append, List.length_replicate]; omega
  · rw [digitsValue_eq]
    have := zeros_value (w - (natStr n).length) (natStr n)
    unfold Dec.zeros at this
    unfold padNat; rw [this, natOfDigits_natStr]

theorem padNat_wide {w n : ℕ} (h : 10 ^ w ≤ n) : padNat w n = natStr n := by
  have hn : 0 < n := lt_of_lt_of_le (by positivity) h
  have h1 := (plain_bounds (plain_natStr n) hn).2
  have := (Nat.pow_lt_pow_iff_right (a := 10) (by norm_num)).mp (lt_of_le_of_lt h h1)
  unfold padNat
  rw [Nat.sub_eq_zero_of_le (by omega)]; rfl

/-! ### Numbers -/

theorem whole_intStr (n : ℤ) : WholeText n (intStr n) := by
  refine ⟨natStr n.natAbs, plain_natStr _, ?_⟩
  unfold intStr minus; split <;> rfl

theorem whole_unique {n : ℤ} {a b : JStr} (ha : WholeText n a) (hb : WholeText n b) : a = b := by
  obtain ⟨ds, h1, rfl⟩ := ha
  obtain ⟨es, h2, rfl⟩ := hb
  rw [plain_unique h1 h2]

theorem big_toStr (d : Dec) : BigText d d.toStr := by
  obtain ⟨u, sc⟩ := d
  have hp := plain_natStr u.natAbs
  have hne : (natStr u.natAbs).length ≠ 0 := by
    intro e; exact natStr_ne_nil _ (List.length_eq_zero_iff.mp e)
  unfold Dec.toStr
  simp only
  rw [show (if u < 0 then ['-'] else ([] : JStr)) = minus u from rfl]
  by_cases h0 : sc = 0
  · rw [if_pos h0]; exact .whole h0 hp
  · rw [if_neg h0]
    by_cases h1 : 0 ≤ sc ∧ -6 ≤ -sc + (((natStr u.natAbs).length : ℤ) - 1)
    · rw [if_pos h1]
      by_cases h2 : (natStr u.natAbs).length ≤ sc.toNat
      · rw [if_pos h2]
        have : minus u ++ j!"0." ++ Dec.zeros (sc.toNat - (natStr u.natAbs).length) ++ natStr u.natAbs =
            minus u ++ ['0'] ++ '.' :: (Dec.zeros (sc.toNat - (natStr u.natAbs).length) ++ natStr u.natAbs) := by simp
        rw [this]
        refine .point (show 0 < sc by omega) hp (show -6 ≤ _ - 1 - sc by omega) ⟨by simp, rfl⟩ (.inl rfl) ?_ ?_ ?_
        · rw [List.all_append, zeros_digits, natStr_digits]; rfl
        · rw [List.length_append]; simp [Dec.zeros]; omega
        · rw [digitsValue_eq]
          exact (zeros_value 1 _).trans ((zeros_value _ _).trans (natOfDigits_natStr _))
      · rw [if_neg h2]
        have hall := natStr_digits u.natAbs
        rw [← List.take_append_drop ((natStr u.natAbs).length - sc.toNat) (natStr u.natAbs), List.all_append,
          Bool.and_eq_true] at hall
        rw [List.append_assoc, List.singleton_append]
        refine .point (show 0 < sc by omega) hp (show -6 ≤ _ - 1 - sc by omega) ⟨?_, hall.1⟩ ?_ hall.2 ?_ ?_
        · intro e
          have := congrArg List.length e
          rw [List.length_take, List.length_nil] at this; omega
        · right
          rw [List.head?_take, if_neg (by omega)]
          rcases hp.2.1 with h | h
          · rw [h] at h2; simp at h2; omega
          · exact h
        · rw [List.length_drop]; show _ = sc; omega
        · rw [List.take_append_drop, digitsValue_eq, natOfDigits_natStr]
    · rw [if_neg h1]
      cases hc : natStr u.natAbs with
      | nil => rw [hc] at hne; exact absurd rfl hne
      | cons c cs =>
        rw [hc] at hp h1
        simp only [List.length_cons] at h1 ⊢
        have e1 : (-sc + (((cs.length + 1 : ℕ) : ℤ) - 1)) = (cs.length : ℤ) - sc := by omega
        have hc2 : (sc < 0) ∨ (0 < sc ∧ (cs.length : ℤ) - sc < -6) := by omega
        have hz : (cs.length : ℤ) - sc ≠ 0 := by omega
        simp only [e1, if_neg hz]
        have hm : (match c :: cs with | [] => [] | [c] => [c] | c :: cs => c :: '.' :: cs : JStr) =
            c :: (if cs = [] then [] else '.' :: cs) := by
          cases cs <;> rfl
        have key := BigText.scientific (d := ⟨u, sc⟩) hp rfl hc2 (plain_natStr _)
        have e2 : minus u ++ (match c :: cs with | [] => [] | [c] => [c] | c :: cs => c :: '.' :: cs : JStr) ++ ['E'] ++
            (if 0 < (cs.length : ℤ) - sc then ['+'] else []) ++ intStr ((cs.length : ℤ) - sc) =
            minus u ++ c :: (if cs = [] then [] else '.' :: cs) ++
              'E' :: (if (cs.length : ℤ) - sc < 0 then '-' else '+') :: natStr ((cs.length : ℤ) - sc).natAbs := by
          rw [hm]
          unfold intStr
          by_cases hl : (cs.length : ℤ) - sc < 0
          · rw [if_neg (show ¬ 0 < (cs.length : ℤ) - sc by omega), if_pos hl, if_pos hl]; simp
          · rw [if_pos (show 0 < (cs.length : ℤ) - sc by omega), if_neg hl, if_neg hl]; simp
        exact e2 ▸ key

theorem point_unique {a b a' b' : JStr} (ha : IsDigits a) (ha' : IsDigits a')
    (hb : b.all isDigit = true) (hb' : b'.all isDigit = true) (hz : a = ['0'] ∨ a.head? ≠ some '0')
    (hz' : a' = ['0'] ∨ a'.head? ≠ some '0') (hl : b.length = b'.length)
    (hv : digitsValue (a ++ b) = digitsValue (a' ++ b')) : a = a' ∧ b = b' := by
  have split : ∀ {a b : JStr}, a.all isDigit = true → b.all isDigit = true →
      natOfDigits 0 (a ++ b) = natOfDigits 0 a * 10 ^ b.length + natOfDigits 0 b ∧ natOfDigits 0 b < 10 ^ b.length := by
    intro a b _ h
    exact ⟨by rw [natOfDigits_append, natOfDigits_acc], natOfDigits_lt h⟩
  rw [digitsValue_eq, digitsValue_eq] at hv
  obtain ⟨e1, l1⟩ := split ha.2 hb
  obtain ⟨e2, l2⟩ := split ha'.2 hb'
  rw [e1, e2, ← hl] at hv
  rw [← hl] at l2
  have hp : 0 < 10 ^ b.length := by positivity
  have q : natOfDigits 0 a = natOfDigits 0 a' := by
    have := congrArg (· / 10 ^ b.length) hv
    rw [Nat.add_comm, Nat.add_mul_div_right _ _ hp, Nat.add_comm (natOfDigits 0 a' * _), Nat.add_mul_div_right _ _ hp,
      Nat.div_eq_of_lt l1, Nat.div_eq_of_lt l2] at this
    omega
  refine ⟨?_, digits_inj hb hb' hl (by rw [q] at hv; omega)⟩
  exact plain_unique (n := natOfDigits 0 a) ⟨ha, hz, digitsValue_eq _⟩ ⟨ha', hz', by rw [digitsValue_eq, q]⟩

theorem big_unique {d : Dec} {a b : JStr} (ha : BigText d a) (hb : BigText d b) : a = b := by
  cases ha with
  | whole h1 h2 =>
    cases hb with
    | whole _ h2' => rw [plain_unique h2 h2']
    | point h1' => omega
    | scientific _ _ h1' => omega
  | point h1 h2 h3 h4 h5 h6 h7 h8 =>
    cases hb with
    | whole h1' => omega
    | point h1' h2' h3' h4' h5' h6' h7' h8' =>
      obtain ⟨e1, e2⟩ := point_unique h4 h4' h6 h6' h5 h5' (by omega) (h8.trans h8'.symm)
      rw [e1, e2]
    | scientific h2' he h1' =>
      have := plain_length h2 h2'
      rw [List.length_cons] at this
      omega
  | scientific h2 he h1 h3 =>
    cases hb with
    | whole h1' => omega
    | point h1' h2' h3' =>
      have := plain_length h2 h2'
      rw [List.length_cons] at this
      omega
    | scientific h2' he' _ h3' =>
      have e := plain_unique h2 h2'
      injection e with e1 e2
      subst e1 e2
      subst he he'
      rw [plain_unique h3 h3']

/-! ### Dates and times -/

theorem year_str (y : ℤ) : YearText y (if y < 0 then '-' :: padNat 4 y.natAbs
    else if 9999 < y then '+' :: natStr y.natAbs else padNat 4 y.natAbs) := by
  by_cases h : y < 0
  · rw [if_pos h]
    by_cases h9 : -9999 ≤ y
    · exact .ancient h h9 (fixed_padNat (by norm_num) (by norm_num; omega))
    · have := YearText.remote (y := y) (by omega) (plain_natStr _)
      rw [if_pos h] at this
      rw [padNat_wide (by norm_num; omega)]; exact this
  · rw [if_neg h]
    by_cases h9 : 9999 < y
    · have := YearText.remote (y := y) (by omega) (plain_natStr _)
      rw [if_neg h] at this
      rw [if_pos h9]; exact this
    · rw [if_neg h9]
      exact .common (by omega) (by omega) (fixed_padNat (by norm_num) (by norm_num; omega))

theorem year_unique {y : ℤ} {a b : JStr} (ha : YearText y a) (hb : YearText y b) : a = b := by
  cases ha <;> cases hb <;> first | omega | skip
  · rename_i h _ _ h'; exact fixed_unique h h'
  · rename_i h _ _ _ h'; rw [fixed_unique h h']
  · rename_i h _ _ h'; rw [plain_unique h h']

theorem iso_dateStr {d : Date} (h : DateExists d) : IsoDate d (dateStr d) := by
  refine ⟨_, _, _, year_str d.year, fixed_padNat (w := 2) (by norm_num) (by have := h.1; norm_num; omega),
    fixed_padNat (w := 2) (by norm_num) (by have := h.2; norm_num; omega), ?_⟩
  simp [dateStr]

theorem iso_unique {d : Date} {a b : JStr} (ha : IsoDate d a) (hb : IsoDate d b) : a = b := by
  obtain ⟨y, m, n, h1, h2, h3, rfl⟩ := ha
  obtain ⟨y', m', n', h1', h2', h3', rfl⟩ := hb
  rw [year_unique h1 h1', fixed_unique h2 h2', fixed_unique h3 h3']

theorem seconds_unique {t : DateTime} {a b : JStr} (ha : SecondsText t a) (hb : SecondsText t b) : a = b := by
  cases ha with
  | none h1 h2 => cases hb <;> first | rfl | contradiction
  | whole h1 h2 h3 =>
    cases hb with
    | none h1' => contradiction
    | whole _ _ h3' => rw [fixed_unique h3 h3']
    | fraction h => contradiction
  | @fraction s f w h1 h2 h3 h4 h5 h6 h7 =>
    cases hb with
    | none _ h => contradiction
    | whole _ h => contradiction
    | @fraction s' f' w' _ h2' h3' h4' h5' h6' h7' =>
      have hw : w = w' := by
        rcases Nat.lt_trichotomy w w' with h | h | h
        · exact absurd ⟨digitsValue f, by rw [← h6]; ring⟩ (h7' w h3 h)
        · exact h
        · exact absurd ⟨digitsValue f', by rw [← h6']; ring⟩ (h7 w' h3' h)
      subst hw
      have hv : digitsValue f = digitsValue f' := by
        have := h6.trans h6'.symm
        exact Nat.eq_of_mul_eq_mul_right (by positivity) this
      rw [fixed_unique h2 h2', fixed_unique (w := w) ⟨h4, h5, hv⟩ ⟨h4', h5', rfl⟩]

theorem time_unique {t : DateTime} {a b : JStr} (ha : IsoTime t a) (hb : IsoTime t b) : a = b := by
  obtain ⟨h, m, r, h1, h2, h3, rfl⟩ := ha
  obtain ⟨h', m', r', h1', h2', h3', rfl⟩ := hb
  rw [fixed_unique h1 h1', fixed_unique h2 h2', seconds_unique h3 h3']

theorem iso_timeStr {t : DateTime} (h : TimeExists t) : IsoTime t (timeStr t) := by
  obtain ⟨hh, hm, hs, hn⟩ := h
  have key : SecondsText t (if 0 < t.second ∨ 0 < t.nano then
      [':'] ++ padNat 2 t.second ++
        (if 0 < t.nano then
          ['.'] ++ (if t.nano % 1000000 = 0 then padNat 3 (t.nano / 1000000)
                    else if t.nano % 1000 = 0 then padNat 6 (t.nano / 1000)
                    else padNat 9 t.nano)
        else [])
    else []) := by
    have hs2 : FixedDigits 2 t.second (padNat 2 t.second) := fixed_padNat (by norm_num) (by norm_num; omega)
    by_cases h0 : t.nano = 0
    · by_cases h1 : t.second = 0
      · rw [if_neg (by omega)]; exact .none h1 h0
      · rw [if_pos (by omega), if_neg (by omega), List.append_nil]; exact .whole h1 h0 hs2
    · rw [if_pos (by omega), if_pos (by omega)]
      have frac : ∀ {w k : ℕ}, w ∈ [3, 6, 9] → FixedDigits w k (padNat w k) → k * 10 ^ (9 - w) = t.nano →
          (∀ k ∈ [3, 6, 9], k < w → ¬ 10 ^ (9 - k) ∣ t.nano) →
          SecondsText t ([':'] ++ padNat 2 t.second ++ (['.'] ++ padNat w k)) := by
        intro w k hw hf hk hmin
        have := SecondsText.fraction (t := t) h0 hs2 hw hf.1 hf.2.1 (by rw [hf.2.2]; exact hk) hmin
        simpa using this
      by_cases h3 : t.nano % 1000000 = 0
      · rw [if_pos h3]
        refine frac (by simp) (fixed_padNat (by norm_num) (by norm_num; omega)) (by norm_num; omega) ?_
        intro k hk hlt
        simp only [List.mem_cons, List.not_mem_nil, or_false] at hk
        omega
      · rw [if_neg h3]
        by_cases h6 : t.nano % 1000 = 0
        · rw [if_pos h6]
          refine frac (by simp) (fixed_padNat (by norm_num) (by norm_num; omega)) (by norm_num; omega) ?_
          intro k hk hlt
          simp only [List.mem_cons, List.not_mem_nil, or_false] at hk
          have : k = 3 := by omega
          subst this
          norm_num; omega
        · rw [if_neg h6]
          refine frac (by simp) (fixed_padNat (by norm_num) (by norm_num; omega)) (by norm_num) ?_
          intro k hk hlt
          simp only [List.mem_cons, List.not_mem_nil, or_false] at hk
          have : k = 3 ∨ k = 6 := by omega
          rcases this with rfl | rfl
          · norm_num; omega
          · norm_num; omega
  refine ⟨_, _, _, fixed_padNat (w := 2) (by norm_num) (by norm_num; omega),
    fixed_padNat (w := 2) (by norm_num) (by norm_num; omega), key, ?_⟩
  unfold timeStr
  simp only [List.append_assoc, List.cons_append, List.nil_append]

/-! ### Objects -/

mutual
theorem printed_text : (v : Value) → RealDates v → PrintedAs v v.text
  | .null, _ => by rw [Value.text]; exact .null
  | .bool true, _ => by rw [Value.text]; exact .yes
  | .bool false, _ => by rw [Value.text]; exact .no
  | .int n, _ => by rw [Value.text]; exact .int (whole_intStr n)
  | .long n, _ => by rw [Value.text]; exact .long (whole_intStr n)
  | .dec d, _ => by rw [Value.text]; exact .big (big_toStr d)
  | .dbl t, _ => by rw [Value.text]; exact .double t
  | .flt t, _ => by rw [Value.text]; exact .float t
  | .str t, _ => by rw [Value.text]; exact .text t
  | .ver t, _ => by rw [Value.text]; exact .version t
  | .other t, _ => by rw [Value.text]; exact .other t
  | .arr t xs, _ => by rw [Value.text]; exact .array t xs
  | .date d, h => by rw [Value.text]; exact .date (iso_dateStr (by rw [RealDates] at h; exact h))
  | .datetime t, h => by
    rw [RealDates] at h
    rw [Value.text]
    have := PrintedAs.datetime (iso_dateStr h.1) (iso_timeStr h.2)
    simpa [dateTimeStr] using this
  | .list xs, h => by
    rw [RealDates] at h
    obtain ⟨ts, h1, h2⟩ := printed_texts xs h
    rw [Value.text, h2]
    have := PrintedAs.list h1
    simpa using this
  | .coll xs, h => by
    rw [RealDates] at h
    obtain ⟨ts, h1, h2⟩ := printed_texts xs h
    rw [Value.text, h2]
    have := PrintedAs.coll h1
    simpa using this
  | .map es, h => by
    rw [RealDates] at h
    obtain ⟨ts, h1, h2⟩ := printed_entries es h
    rw [Value.text, h2]
    have := PrintedAs.map h1
    simpa using this
theorem printed_texts : (xs : List Value) → AllRealDates xs → ∃ ts, PrintedAll xs ts ∧
    Value.texts xs = j!", ".intercalate ts
  | [], _ => ⟨[], .nil, by rw [Value.texts]; rfl⟩
  | [x], h => by
    rw [AllRealDates] at h
    exact ⟨[x.text], .cons (printed_text x h.1) .nil, by rw [Value.texts]; simp [List.intercalate]⟩
  | x :: y :: xs, h => by
    rw [AllRealDates] at h
    obtain ⟨ts, h1, h2⟩ := printed_texts (y :: xs) h.2
    refine ⟨x.text :: ts, .cons (printed_text x h.1) h1, ?_⟩
    rw [Value.texts, h2]
    cases h1
    simp [List.intercalate, List.intersperse]
theorem printed_entries : (es : List (JStr × Value)) → EachRealDates es → ∃ ts, PrintedEach es ts ∧
    Value.entryTexts es = j!", ".intercalate ts
  | [], _ => ⟨[], .nil, by rw [Value.entryTexts]; rfl⟩
  | [(k, x)], h => by
    rw [EachRealDates] at h
    exact ⟨[k ++ '=' :: x.text], .cons (printed_text x h.1) .nil, by rw [Value.entryTexts]; simp [List.intercalate]⟩
  | (k, x) :: e :: es, h => by
    rw [EachRealDates] at h
    obtain ⟨ts, h1, h2⟩ := printed_entries (e :: es) h.2
    refine ⟨(k ++ '=' :: x.text) :: ts, .cons (printed_text x h.1) h1, ?_⟩
    rw [Value.entryTexts, h2]
    cases h1
    simp [List.intercalate, List.intersperse]
end

mutual
theorem printed_unique : (v : Value) → ∀ {s t : JStr}, PrintedAs v s → PrintedAs v t → s = t
  | .null, _, _, h, h' => by cases h; cases h'; rfl
  | .bool true, _, _, h, h' => by cases h; cases h'; rfl
  | .bool false, _, _, h, h' => by cases h; cases h'; rfl
  | .int n, _, _, h, h' => by cases h with | int h => cases h' with | int h' => exact whole_unique h h'
  | .long n, _, _, h, h' => by cases h with | long h => cases h' with | long h' => exact whole_unique h h'
  | .dec d, _, _, h, h' => by cases h with | big h => cases h' with | big h' => exact big_unique h h'
  | .dbl t, _, _, h, h' => by cases h; cases h'; rfl
  | .flt t, _, _, h, h' => by cases h; cases h'; rfl
  | .str t, _, _, h, h' => by cases h; cases h'; rfl
  | .ver t, _, _, h, h' => by cases h; cases h'; rfl
  | .other t, _, _, h, h' => by cases h; cases h'; rfl
  | .arr t xs, _, _, h, h' => by cases h; cases h'; rfl
  | .date d, _, _, h, h' => by cases h with | date h => cases h' with | date h' => exact iso_unique h h'
  | .datetime t, _, _, h, h' => by
    cases h with | datetime h1 h2 => cases h' with | datetime h1' h2' => rw [iso_unique h1 h1', time_unique h2 h2']
  | .list xs, _, _, h, h' => by
    cases h with | list h => cases h' with | list h' => rw [printedAll_unique xs h h']
  | .coll xs, _, _, h, h' => by
    cases h with | coll h => cases h' with | coll h' => rw [printedAll_unique xs h h']
  | .map es, _, _, h, h' => by
    cases h with | map h => cases h' with | map h' => rw [printedEach_unique es h h']
theorem printedAll_unique : (xs : List Value) → ∀ {s t : List JStr}, PrintedAll xs s → PrintedAll xs t → s = t
  | [], _, _, h, h' => by cases h; cases h'; rfl
  | x :: xs, _, _, h, h' => by
    cases h with | cons h1 h2 => cases h' with | cons h1' h2' => rw [printed_unique x h1 h1', printedAll_unique xs h2 h2']
theorem printedEach_unique : (es : List (JStr × Value)) → ∀ {s t : List JStr}, PrintedEach es s → PrintedEach es t → s = t
  | [], _, _, h, h' => by cases h; cases h'; rfl
  | (k, x) :: es, _, _, h, h' => by
    cases h with
    | cons h1 h2 => cases h' with | cons h1' h2' => rw [printed_unique x h1 h1', printedEach_unique es h2 h2']
end

theorem printed_iff {v : Value} (h : RealDates v) (t : JStr) : PrintedAs v t ↔ t = v.text :=
  ⟨fun h' => printed_unique v h' (printed_text v h), fun e => e ▸ printed_text v h⟩

end BoolParser
