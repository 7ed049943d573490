import Verif.Lemmas.Automaton
import Verif.Lemmas.Cutting
import Verif.Lemmas.Literals
import Verif.Lemmas.Kinds
/-!
# Each lexer rule's automaton accepts the texts of the rule
-/

namespace BoolParser
open Spec

/-! ### Steps -/

/-- The first interval with the character. -/
def edgeNext (n : Nat) : List (Nat × Nat × Nat) → Option Nat
  | [] => none
  | e :: es => if e.1 ≤ n ∧ n ≤ e.2.1 then some e.2.2 else edgeNext n es

theorem next_edges (r : DRow) (n : Nat) : r.next n = edgeNext n r.edges := by
  unfold DRow.next
  induction r.edges with
  | nil => rfl
  | cons e es ih =>
    simp only [List.find?_cons, edgeNext]
    by_cases h : e.1 ≤ n ∧ n ≤ e.2.1
    · rw [if_pos h, decide_eq_true h.1, decide_eq_true h.2]; rfl
    · rw [if_neg h]
      have : (decide (e.1 ≤ n) && decide (n ≤ e.2.1)) = false := by
        rw [Bool.and_eq_false_iff]
        by_cases h1 : e.1 ≤ n
        · exact Or.inr (decide_eq_false (fun h2 => h ⟨h1, h2⟩))
        · exact Or.inl (decide_eq_false h1)
      rw [this]
      exact ih

theorem qstep_row {rows : List DRow} {j : Nat} {r : DRow} (h : rows[j]? = some r) (n : Nat) :
    qstep rows (some j) n = edgeNext n r.edges := by
  simp only [qstep, h, next_edges]

/-- The rule's automaton accepts the text from state `j`. -/
def accFrom (rows : List DRow) (j : Nat) (w : JStr) : Bool := accAt rows (qrun rows (some j) w)

theorem qrun_none (rows : List DRow) (w : JStr) : qrun rows none w = none := by
  induction w with
  | nil => rfl
  | cons c w ih => exact ih

theorem accFrom_nil (rows : List DRow) (j : Nat) : accFrom rows j [] = accAt rows (some j) := rfl

theorem accFrom_cons (rows : List DRow) (j : Nat) (c : Char) (w : JStr) :
    accFrom rows j (c :: w) = match qstep rows (some j) c.toNat with
      | some k => accFrom rows k w
      | none => false := by
  simp only [accFrom, qrun]
  cases qstep rows (some j) c.toNat with
  | none => simp only [qrun_none]; rfl
  | some k => rfl

theorem char_is (c : Char) (n : Nat) (h : n.isValidChar) : c = Char.ofNat n ↔ c.toNat = n := by
  constructor
  · intro e
    rw [e, Char.ofNat, dif_pos h]
    simp [Char.toNat, Char.ofNatAux]
  · intro e
    rw [← e, Char.ofNat_toNat]

/-! ### Rules without loops -/

/-- The texts accepted from a state, as sequences of intervals; `none` if there may be longer ones. -/
def patterns (rows : List DRow) : Nat → Nat → Option (List (List (Nat × Nat)))
  | 0, _ => none
  | f + 1, j =>
    match rows[j]? with
    | none => some []
    | some r =>
      match r.edges.mapM (fun e => (patterns rows f e.2.2).map (fun ps => ps.map (fun p => (e.1, e.2.1) :: p))) with
      | none => none
      | some ls => some ((if r.acc then [[]] else []) ++ ls.flatten)

/-- A text fits a sequence of intervals. -/
def fits : List (Nat × Nat) → JStr → Bool
  | [], [] => true
  | i :: p, c :: w => decide (i.1 ≤ c.toNat) && decide (c.toNat ≤ i.2) && fits p w
  | _, _ => false

/-- The intervals do not overlap. -/
def apart : List (Nat × Nat × Nat) → Bool
  | [] => true
  | e :: es => es.all (fun e' => decide (e.2.1 < e'.1) || decide (e'.2.1 < e.1)) && apart es

theorem edgeNext_some {n k : Nat} {es : List (Nat × Nat × Nat)} (h : edgeNext n es = some k) :
    ∃ e ∈ es, e.1 ≤ n ∧ n ≤ e.2.1 ∧ e.2.2 = k := by
  induction es with
  | nil => cases h
  | cons e es ih =>
    simp only [edgeNext] at h
    split at h
    · rename_i hc
      injection h with h
      exact ⟨e, by simp, hc.1, hc.2, h⟩
    · obtain ⟨e', he', h'⟩ := ih h
      exact ⟨e', by simp [he'], h'⟩

theorem edgeNext_apart {n : Nat} {es : List (Nat × Nat × Nat)} (ha : apart es = true) {e : Nat × Nat × Nat}
    (he : e ∈ es) (h1 : e.1 ≤ n) (h2 : n ≤ e.2.1) : edgeNext n es = some e.2.2 := by
  induction es with
  | nil => cases he
  | cons d es ih =>
    simp only [apart, Bool.and_eq_true, List.all_eq_true, Bool.or_eq_true, decide_eq_true_eq] at ha
    simp only [edgeNext]
    rcases List.mem_cons.mp he with rfl | he
    · rw [if_pos ⟨h1, h2⟩]
    · have := ha.1 e he
      rw [if_neg (by omega)]
      exact ih ha.2 he

theorem mapM_mem {α β : Type} {f : α → Option β} : ∀ {l : List α} {r : List β}, l.mapM f = some r →
    (∀ b ∈ r, ∃ a ∈ l, f a = some b) ∧ (∀ a ∈ l, ∃ b ∈ r, f a = some b)
  | [], r, h => by
    simp only [List.mapM_nil, Option.pure_def, Option.some.injEq] at h
    subst h; simp
  | a :: l, r, h => by
    simp only [List.mapM_cons, Option.bind_eq_bind, Option.pure_def, Option.bind_eq_some_iff, Option.some.injEq] at h
    obtain ⟨b, hb, r', hr', rfl⟩ := h
    obtain ⟨h1, h2⟩ := mapM_mem hr'
    constructor
    · intro x hx
      rcases List.mem_cons.mp hx with rfl | hx
      · exact ⟨a, by simp, hb⟩
      · obtain ⟨y, hy, e⟩ := h1 x hx
        exact ⟨y, by simp [hy], e⟩
    · intro x hx
      rcases List.mem_cons.mp hx with rfl | hx
      · exact ⟨b, by simp, hb⟩
      · obtain ⟨y, hy, e⟩ := h2 x hx
        exact ⟨y, by simp [hy], e⟩

theorem patterns_accept {rows : List DRow} (ha : ∀ r ∈ rows, apart r.edges = true) (f : Nat) :
    ∀ (j : Nat) (ps : List (List (Nat × Nat))), patterns rows f j = some ps → ∀ w,
      accFrom rows j w = true ↔ ∃ p ∈ ps, fits p w = true := by
  induction f with
  | zero => intro j ps h; cases h
  | succ f ih =>
    intro j ps h w
    simp only [patterns] at h
    cases hr : rows[j]? with
    | none =>
      rw [hr] at h
      injection h with h; subst h
      have : accFrom rows j w = false := by
        cases w with
        | nil => simp [accFrom_nil, accAt, hr]
        | cons c w => rw [accFrom_cons]; simp [qstep, hr]
      simp [this]
    | some r =>
      rw [hr] at h
      simp only at h
      split at h
      · cases h
      · rename_i ls hls
        injection h with h
        obtain ⟨h1, h2⟩ := mapM_mem hls
        have hra := ha r (List.mem_of_getElem? hr)
        cases w with
        | nil =>
          have : accFrom rows j [] = r.acc := by simp [accFrom_nil, accAt, hr]
          rw [this, ← h]
          constructor
          · intro hc; exact ⟨[], by simp [hc], rfl⟩
          · rintro ⟨p, hp, hf⟩
            rcases List.mem_append.mp hp with hp | hp
            · by_contra hc; rw [if_neg hc] at hp; cases hp
            · obtain ⟨l, hl, hp⟩ := List.mem_flatten.mp hp
              obtain ⟨e, he, e'⟩ := h1 l hl
              simp only [Option.map_eq_some_iff] at e'
              obtain ⟨q, _, rfl⟩ := e'
              obtain ⟨p', _, rfl⟩ := List.mem_map.mp hp
              cases hf
        | cons c w =>
          rw [accFrom_cons, qstep_row hr, ← h]
          constructor
          · intro hc
            cases hn : edgeNext c.toNat r.edges with
            | none => rw [hn] at hc; cases hc
            | some k =>
              rw [hn] at hc
              obtain ⟨e, he, hl, hh, rfl⟩ := edgeNext_some hn
              obtain ⟨l, hl', e'⟩ := h2 e he
              simp only [Option.map_eq_some_iff] at e'
              obtain ⟨q, hq, rfl⟩ := e'
              obtain ⟨p, hp, hf⟩ := (ih _ q hq w).mp hc
              refine ⟨(e.1, e.2.1) :: p, ?_, ?_⟩
              · refine List.mem_append.mpr (Or.inr (List.mem_flatten.mpr ⟨_, hl', List.mem_map.mpr ⟨p, hp, rfl⟩⟩))
              · simp [fits, hl, hh, hf]
          · rintro ⟨p, hp, hf⟩
            rcases List.mem_append.mp hp with hp | hp
            · split at hp
              · simp only [List.mem_singleton] at hp; subst hp; cases hf
              · cases hp
            · obtain ⟨l, hl, hp⟩ := List.mem_flatten.mp hp
              obtain ⟨e, he, e'⟩ := h1 l hl
              simp only [Option.map_eq_some_iff] at e'
              obtain ⟨q, hq, rfl⟩ := e'
              obtain ⟨p', hp', rfl⟩ := List.mem_map.mp hp
              simp only [fits, Bool.and_eq_true, decide_eq_true_eq] at hf
              rw [edgeNext_apart hra he hf.1.1 hf.1.2]
              exact (ih _ q hq w).mpr ⟨p', hp', hf.2⟩

/-- A word as a sequence of intervals. -/
def wordPat (l : JStr) : List (Nat × Nat) := l.map (fun c => (c.toNat, c.toNat))

theorem fits_word (l w : JStr) : fits (wordPat l) w = true ↔ w = l := by
  induction l generalizing w with
  | nil => cases w <;> simp [wordPat, fits]
  | cons c l ih =>
    cases w with
    | nil => simp [wordPat, fits]
    | cons d w =>
      have ih := ih w
      simp only [wordPat] at ih
      simp only [wordPat, List.map_cons, fits, Bool.and_eq_true, decide_eq_true_eq, ih, List.cons.injEq]
      constructor
      · rintro ⟨h, e⟩
        exact ⟨Char.toNat_inj.mp (by omega), e⟩
      · rintro ⟨rfl, e⟩
        exact ⟨⟨Nat.le_refl _, Nat.le_refl _⟩, e⟩

/-- Does the automaton accept exactly these words? (Checked by running it.) -/
def acceptsWords (rows : List DRow) (ls : List JStr) : Bool :=
  rows.all (fun r => apart r.edges) &&
  match patterns rows 30 0 with
  | none => false
  | some ps => ps.all (fun p => ls.any (fun l => p == wordPat l)) && ls.all (fun l => ps.any (fun p => p == wordPat l))

theorem acceptsWords_iff {rows : List DRow} {ls : List JStr} (h : acceptsWords rows ls = true) (w : JStr) :
    accFrom rows 0 w = true ↔ w ∈ ls := by
  simp only [acceptsWords, Bool.and_eq_true] at h
  obtain ⟨ha, h⟩ := h
  cases hp : patterns rows 30 0 with
  | none => rw [hp] at h; cases h
  | some ps =>
    rw [hp] at h
    simp only [Bool.and_eq_true, List.all_eq_true, List.any_eq_true] at h ha
    rw [patterns_accept ha 30 0 ps hp w]
    constructor
    · rintro ⟨p, hpm, hf⟩
      obtain ⟨l, hl, e⟩ := h.1 p hpm
      rw [eq_of_beq e] at hf
      rw [(fits_word l w).mp hf]; exact hl
    · intro hw
      obtain ⟨p, hpm, e⟩ := h.2 w hw
      exact ⟨p, hpm, by rw [eq_of_beq e]; exact (fits_word w w).mpr rfl⟩

/-- A pattern of digits (`d`) and other characters as a sequence of intervals. -/
def digitPat (p : JStr) : List (Nat × Nat) := p.map (fun c => if c = 'd' then (48, 57) else (c.toNat, c.toNat))

theorem fits_digit (p w : JStr) : fits (digitPat p) w = true ↔ mPat p w = true ∧ w.length = p.length := by
  induction p generalizing w with
  | nil => cases w <;> simp [digitPat, fits, mPat]
  | cons c p ih =>
    cases w with
    | nil => simp [digitPat, fits, mPat]
    | cons d w =>
      have ih := ih w
      simp only [digitPat] at ih
      simp only [digitPat, List.map_cons, fits, Bool.and_eq_true, decide_eq_true_eq, ih, mPat, List.length_cons,
        Nat.add_right_cancel_iff]
      by_cases hc : c = 'd'
      · simp only [hc, if_true, isDigit, Bool.and_eq_true, decide_eq_true_eq, and_assoc]
      · simp only [hc, if_false, and_assoc, beq_iff_eq]
        constructor
        · rintro ⟨h1, h2, h⟩
          exact ⟨(Char.toNat_inj.mp (by omega)), h⟩
        · rintro ⟨rfl, h⟩
          exact ⟨Nat.le_refl _, Nat.le_refl _, h⟩

theorem accepts_digitPat {rows : List DRow} {p : JStr} (ha : rows.all (fun r => apart r.edges) = true)
    (hp : patterns rows 30 0 = some [digitPat p]) (w : JStr) :
    accFrom rows 0 w = true ↔ mPat p w = true ∧ w.length = p.length := by
  rw [patterns_accept (List.all_eq_true.mp ha) 30 0 _ hp w]
  simp [fits_digit]

/-! ### Rules with loops -/

theorem accFrom_all {rows : List DRow} {j : Nat} {p : Char → Bool}
    (hs : ∀ c : Char, qstep rows (some j) c.toNat = if p c then some j else none) (ha : accAt rows (some j) = true)
    (w : JStr) : accFrom rows j w = w.all p := by
  induction w with
  | nil => exact ha
  | cons c w ih =>
    rw [accFrom_cons, hs c, List.all_cons]
    cases p c with
    | true => simp [ih]
    | false => simp

theorem accFrom_some {rows : List DRow} {i j : Nat} {p : Char → Bool}
    (hi : ∀ c : Char, qstep rows (some i) c.toNat = if p c then some j else none)
    (hj : ∀ c : Char, qstep rows (some j) c.toNat = if p c then some j else none) (ha : accAt rows (some i) = false)
    (hb : accAt rows (some j) = true) (w : JStr) : accFrom rows i w = true ↔ w ≠ [] ∧ w.all p = true := by
  cases w with
  | nil => simp [accFrom_nil, ha]
  | cons c w =>
    rw [accFrom_cons, hi c, List.all_cons]
    cases p c with
    | true => simp [accFrom_all hj hb]
    | false => simp

theorem nz_iff {p : Char → Bool} {w : JStr} :
    nz (w.takeWhile p).length = some w.length ↔ w ≠ [] ∧ w.all p = true := by
  constructor
  · intro h
    refine ⟨?_, nz_full h⟩
    rintro rfl
    simp [nz] at h
  · rintro ⟨h1, h2⟩
    rw [all_takeWhile h2, nz, if_neg (by simpa using h1)]

theorem accFrom_close {rows : List DRow} {j k : Nat} {q : Char}
    (hj : ∀ c : Char, qstep rows (some j) c.toNat = if c = q then some k else some j)
    (hk : ∀ c : Char, qstep rows (some k) c.toNat = none) (ha : accAt rows (some j) = false)
    (hb : accAt rows (some k) = true) (w : JStr) :
    accFrom rows j w = true ↔ (w.takeWhile (· ≠ q)).length + 1 = w.length := by
  induction w with
  | nil => simp [accFrom_nil, ha]
  | cons c w ih =>
    rw [accFrom_cons, hj c]
    by_cases hc : c = q
    · rw [if_pos hc]
      cases w with
      | nil => simp [accFrom_nil, hb, hc]
      | cons d w =>
        simp only [accFrom_cons, hk d, Bool.false_eq_true, hc, List.takeWhile_cons, ne_eq, not_true_eq_false, decide_false,
          if_false, List.length_nil, List.length_cons, false_iff]
        omega
    · rw [if_neg hc]
      simp only [ih, List.takeWhile_cons, ne_eq, hc, not_false_eq_true, decide_true, if_true, List.length_cons]
      omega

/-! ### The rules of the grammar -/

theorem isDigit_iff (c : Char) : isDigit c = true ↔ 48 ≤ c.toNat ∧ c.toNat ≤ 57 := by
  simp [isDigit]

theorem step_digits {rows : List DRow} {j k : Nat} {r : DRow} (hr : rows[j]? = some r) (he : r.edges = [(48, 57, k)])
    (c : Char) : qstep rows (some j) c.toNat = if isDigit c then some k else none := by
  rw [qstep_row hr, he]
  simp only [edgeNext, isDigit_iff]

theorem dot_iff (c : Char) : c = '.' ↔ c.toNat = 46 := char_is c 46 (by decide)

theorem step_dot {rows : List DRow} {j k : Nat} {r : DRow} (hr : rows[j]? = some r) (he : r.edges = [(46, 46, k)])
    (c : Char) : qstep rows (some j) c.toNat = if c = '.' then some k else none := by
  rw [qstep_row hr, he]
  simp only [edgeNext, dot_iff]
  by_cases h : c.toNat = 46
  · rw [if_pos (by omega), if_pos h]
  · rw [if_neg (by omega), if_neg h]

theorem step_dot_digits {rows : List DRow} {j k l : Nat} {r : DRow} (hr : rows[j]? = some r)
    (he : r.edges = [(46, 46, k), (48, 57, l)]) (c : Char) :
    qstep rows (some j) c.toNat = if c = '.' then some k else if isDigit c then some l else none := by
  rw [qstep_row hr, he]
  simp only [edgeNext, dot_iff, isDigit_iff]
  by_cases h : c.toNat = 46
  · rw [if_pos (by omega), if_pos h]
  · rw [if_neg (by omega), if_neg h]

/-- `INTEGER`. -/
theorem accepts_integer (w : JStr) : accFrom dfa37 0 w = true ↔ mInteger w = some w.length := by
  rw [accFrom_some (step_digits rfl rfl) (step_digits rfl rfl) rfl rfl]
  exact nz_iff.symm

/-- `WS`. -/
theorem accepts_ws (w : JStr) : accFrom dfa40 0 w = true ↔ mWs w = some w.length := by
  have hw : ∀ c : Char, isWs c = true ↔ (9 ≤ c.toNat ∧ c.toNat ≤ 10) ∨ (12 ≤ c.toNat ∧ c.toNat ≤ 13) ∨
      (32 ≤ c.toNat ∧ c.toNat ≤ 32) := by
    intro c
    have h1 := char_is c 32 (by decide)
    have h2 := char_is c 13 (by decide)
    have h3 := char_is c 9 (by decide)
    have h4 := char_is c 10 (by decide)
    change c = ' ' ↔ _ at h1; change c = '\r' ↔ _ at h2; change c = '\t' ↔ _ at h3; change c = '\n' ↔ _ at h4
    simp only [isWs, Bool.or_eq_true, beq_iff_eq, h1, h2, h3, h4]
    omega
  have hs : ∀ (j : Nat) (r : DRow), dfa40[j]? = some r → r.edges = [(9,10,1), (12,13,1), (32,32,1)] → ∀ c : Char,
      qstep dfa40 (some j) c.toNat = if isWs c then some 1 else none := by
    intro j r hr he c
    rw [qstep_row hr, he]
    simp only [edgeNext]
    by_cases h : isWs c = true
    · rw [if_pos h]
      have := (hw c).mp h
      repeat' split
      all_goals first | rfl | omega
    · rw [if_neg h]
      have := mt (hw c).mpr h
      repeat' split
      all_goals first | rfl | omega
  rw [accFrom_some (hs 0 _ rfl rfl) (hs 1 _ rfl rfl) rfl rfl]
  exact nz_iff.symm

/-- `FIELD`. -/
theorem accepts_field (w : JStr) : accFrom dfa44 0 w = true ↔ mField w = some w.length := by
  have hw : ∀ c : Char, isFieldChar c = true ↔ (46 ≤ c.toNat ∧ c.toNat ≤ 46) ∨ (48 ≤ c.toNat ∧ c.toNat ≤ 57) ∨
      (65 ≤ c.toNat ∧ c.toNat ≤ 90) ∨ (95 ≤ c.toNat ∧ c.toNat ≤ 95) ∨ (97 ≤ c.toNat ∧ c.toNat ≤ 122) := by
    intro c
    have h1 := char_is c 95 (by decide)
    change c = '_' ↔ _ at h1
    simp only [isFieldChar, Bool.or_eq_true, Bool.and_eq_true, decide_eq_true_eq, beq_iff_eq, h1, dot_iff, isDigit]
    omega
  have hs : ∀ (j : Nat) (r : DRow), dfa44[j]? = some r →
      r.edges = [(46,46,1), (48,57,1), (65,90,1), (95,95,1), (97,122,1)] → ∀ c : Char,
      qstep dfa44 (some j) c.toNat = if isFieldChar c then some 1 else none := by
    intro j r hr he c
    rw [qstep_row hr, he]
    simp only [edgeNext]
    by_cases h : isFieldChar c = true
    · rw [if_pos h]
      have := (hw c).mp h
      repeat' split
      all_goals first | rfl | omega
    · rw [if_neg h]
      have := mt (hw c).mpr h
      repeat' split
      all_goals first | rfl | omega
  rw [accFrom_some (hs 0 _ rfl rfl) (hs 1 _ rfl rfl) rfl rfl]
  exact nz_iff.symm

/-- `DECIMAL`. -/
theorem accepts_decimal (w : JStr) : accFrom dfa35 0 w = true ↔ mDecimal w = some w.length := by
  have h2 : ∀ w, accFrom dfa35 2 w = true ↔ w ≠ [] ∧ w.all isDigit = true :=
    fun w => accFrom_some (step_digits rfl rfl) (step_digits rfl rfl) rfl rfl w
  have h1 : ∀ w, accFrom dfa35 1 w = true ↔ ∃ r, w.dropWhile isDigit = '.' :: r ∧ r ≠ [] ∧ r.all isDigit = true := by
    intro w
    induction w with
    | nil => simp [accFrom_nil]; rfl
    | cons c w ih =>
      rw [accFrom_cons, step_dot_digits (rows := dfa35) (j := 1) rfl rfl c]
      by_cases hc : c = '.'
      · subst hc
        have : isDigit '.' = false := rfl
        simp [List.dropWhile_cons, this, h2]
      · rw [if_neg hc]
        cases hd : isDigit c with
        | true => simp only [if_true, ih, List.dropWhile_cons, hd]
        | false => simp [List.dropWhile_cons, hd, hc]
  cases w with
  | nil => simp [accFrom_nil, mDecimal]; rfl
  | cons c w =>
    rw [accFrom_cons, step_digits (rows := dfa35) (j := 0) rfl rfl c]
    simp only [mDecimal, drop_takeWhile]
    cases hd : isDigit c with
    | false => simp [List.takeWhile_cons, hd]
    | true =>
      have hlen : (c :: w).length = ((c :: w).takeWhile isDigit).length + ((c :: w).dropWhile isDigit).length := by
        rw [← List.length_append, List.takeWhile_append_dropWhile]
      have hn : ((c :: w).takeWhile isDigit).length ≠ 0 := by simp [List.takeWhile_cons, hd]
      have he : (c :: w).dropWhile isDigit = w.dropWhile isDigit := by simp [List.dropWhile_cons, hd]
      simp only [if_true, h1, hn, if_false]
      rw [hlen, he]
      constructor
      · rintro ⟨r, hr, hr1, hr2⟩
        rw [hr]
        simp only [all_takeWhile hr2, List.length_cons]
        rw [if_neg (by simpa using hr1)]
        congr 1; omega
      · intro h
        split at h
        · rename_i r hr
          split at h
          · cases h
          · rename_i hm
            injection h with h
            rw [hr, List.length_cons] at h
            refine ⟨r, hr, ?_, takeWhile_full (by omega)⟩
            rintro rfl
            exact hm rfl
        · cases h

theorem dropWhile_digits_append {a r : JStr} (ha : a.all isDigit = true) (hr : ∀ c, r.head? = some c → isDigit c = false) :
    (a ++ r).dropWhile isDigit = r := by
  induction a with
  | nil =>
    cases r with
    | nil => rfl
    | cons c r => simp [List.dropWhile_cons, hr c rfl]
  | cons d a ih =>
    simp only [List.all_cons, Bool.and_eq_true] at ha
    simp [List.dropWhile_cons, ha.1, ih ha.2]

/-- `APP_VERSION`. -/
theorem accepts_version (w : JStr) : accFrom dfa36 0 w = true ↔ mVersion w = some w.length := by
  have hdots : ∀ ps : List JStr, ∀ c, (dots ps).head? = some c → isDigit c = false := by
    intro ps c h
    cases ps with
    | nil => cases h
    | cons p ps => simp only [dots, List.head?_cons, Option.some.injEq] at h; subst h; rfl
  have h1 : ∀ n (w : JStr), w.length ≤ n →
      (accFrom dfa36 3 w = true ↔ ∃ ps, w.dropWhile isDigit = dots ps ∧ ∀ p ∈ ps, IsDigits p) ∧
      (accFrom dfa36 1 w = true ↔ ∃ ps, ps ≠ [] ∧ w = dots ps ∧ ∀ p ∈ ps, IsDigits p) := by
    intro n
    induction n with
    | zero =>
      intro w hw
      have : w = [] := List.eq_nil_of_length_eq_zero (Nat.le_zero.mp hw)
      subst this
      refine ⟨⟨fun _ => ⟨[], rfl, by simp⟩, fun _ => rfl⟩, ⟨fun h => (by cases h), ?_⟩⟩
      rintro ⟨ps, hne, h, _⟩
      cases ps with
      | nil => exact absurd rfl hne
      | cons p ps => cases h
    | succ n ih =>
      intro w hw
      have hB : accFrom dfa36 1 w = true ↔ ∃ ps, ps ≠ [] ∧ w = dots ps ∧ ∀ p ∈ ps, IsDigits p := by
        cases w with
        | nil =>
          refine ⟨fun h => (by cases h), ?_⟩
          rintro ⟨ps, hne, h, _⟩
          cases ps with
          | nil => exact absurd rfl hne
          | cons p ps => cases h
        | cons c w =>
          rw [accFrom_cons, step_dot (rows := dfa36) (j := 1) rfl rfl c]
          by_cases hc : c = '.'
          · subst hc
            simp only [if_true]
            cases w with
            | nil =>
              refine ⟨fun h => (by cases h), ?_⟩
              rintro ⟨ps, hne, h, hp⟩
              cases ps with
              | nil => exact absurd rfl hne
              | cons p ps =>
                simp only [dots, List.cons.injEq, true_and] at h
                have := (hp p (by simp)).1
                exact absurd (List.append_eq_nil_iff.mp h.symm).1 this
            | cons d w =>
              rw [accFrom_cons, step_digits (rows := dfa36) (j := 2) rfl rfl d]
              have hlen : w.length ≤ n := by simp at hw; omega
              cases hd : isDigit d with
              | false =>
                simp only [Bool.false_eq_true, if_false, false_iff]
                rintro ⟨ps, hne, h, hp⟩
                cases ps with
                | nil => exact absurd rfl hne
                | cons p ps =>
                  simp only [dots, List.cons.injEq, true_and] at h
                  obtain ⟨hp1, hp2⟩ := hp p (by simp)
                  cases p with
                  | nil => exact hp1 rfl
                  | cons e p =>
                    simp only [List.cons_append, List.cons.injEq] at h
                    simp only [List.all_cons, Bool.and_eq_true] at hp2
                    rw [← h.1, hd] at hp2
                    cases hp2.1
              | true =>
                simp only [if_true, (ih w hlen).1]
                constructor
                · rintro ⟨ps, h, hp⟩
                  refine ⟨(d :: w.takeWhile isDigit) :: ps, by simp, ?_, ?_⟩
                  · rw [dots, ← h, List.cons_append, List.takeWhile_append_dropWhile]
                  · intro p hpm
                    rcases List.mem_cons.mp hpm with rfl | hpm
                    · exact ⟨by simp, by
                        simp only [List.all_cons, hd, Bool.true_and]
                        exact List.all_eq_true.mpr fun c hc => mem_takeWhile hc⟩
                    · exact hp p hpm
                · rintro ⟨ps, hne, h, hp⟩
                  cases ps with
                  | nil => exact absurd rfl hne
                  | cons p ps =>
                    simp only [dots, List.cons.injEq, true_and] at h
                    obtain ⟨hp1, hp2⟩ := hp p (by simp)
                    cases p with
                    | nil => exact absurd rfl hp1
                    | cons e p =>
                      simp only [List.cons_append, List.cons.injEq] at h
                      simp only [List.all_cons, Bool.and_eq_true] at hp2
                      refine ⟨ps, ?_, fun q hq => hp q (by simp [hq])⟩
                      rw [h.2]
                      exact dropWhile_digits_append hp2.2 (hdots ps)
          · simp only [hc, if_false, Bool.false_eq_true, false_iff]
            rintro ⟨ps, hne, h, hp⟩
            cases ps with
            | nil => exact absurd rfl hne
            | cons p ps => simp only [dots, List.cons.injEq] at h; exact hc h.1
      refine ⟨?_, hB⟩
      cases w with
      | nil => exact ⟨fun _ => ⟨[], rfl, by simp⟩, fun _ => rfl⟩
      | cons c w =>
        rw [accFrom_cons, step_dot_digits (rows := dfa36) (j := 3) rfl rfl c]
        by_cases hc : c = '.'
        · have hB' := hB
          rw [accFrom_cons, step_dot (rows := dfa36) (j := 1) rfl rfl c, if_pos hc] at hB'
          rw [if_pos hc, hB']
          have hd : isDigit c = false := by rw [hc]; rfl
          simp only [List.dropWhile_cons, hd, Bool.false_eq_true, if_false]
          constructor
          · rintro ⟨ps, _, h⟩; exact ⟨ps, h⟩
          · rintro ⟨ps, h, hp⟩
            refine ⟨ps, ?_, h, hp⟩
            rintro rfl; cases h
        · rw [if_neg hc]
          cases hd : isDigit c with
          | true =>
            simp only [if_true, List.dropWhile_cons, hd]
            exact (ih w (by simp at hw; omega)).1
          | false =>
            simp only [Bool.false_eq_true, if_false, List.dropWhile_cons, hd, false_iff]
            rintro ⟨ps, h, hp⟩
            cases ps with
            | nil => cases h
            | cons p ps => simp only [dots, List.cons.injEq] at h; exact hc h.1
  cases w with
  | nil => exact ⟨fun h => (by cases h), fun h => (by cases h)⟩
  | cons c w =>
    rw [accFrom_cons, step_digits (rows := dfa36) (j := 0) rfl rfl c]
    simp only [mVersion]
    cases hd : isDigit c with
    | false => simp
    | true =>
      simp only [if_true, (h1 w.length w (Nat.le_refl _)).2, List.length_cons]
      constructor
      · rintro ⟨ps, hne, h, hp⟩
        have := dotInts_dotted ps hp w.length (by rw [← dots_dotted, ← h])
        rw [← dots_dotted, ← h] at this
        rw [this, if_neg, Nat.add_comm]
        rw [h]
        cases ps with
        | nil => exact absurd rfl hne
        | cons p ps => simp [dots]
      · intro h
        split at h
        · cases h
        · rename_i hm
          injection h with h
          obtain ⟨ps, hps, hall⟩ := dotInts_text w.length w (by omega)
          refine ⟨ps, ?_, hps, hall⟩
          rintro rfl
          rw [hps] at hm
          exact hm rfl

theorem quote_iff (c : Char) : (c = '\'' ↔ c.toNat = 39) ∧ (c = '"' ↔ c.toNat = 34) :=
  ⟨char_is c 39 (by decide), char_is c 34 (by decide)⟩

theorem step_in_sq {rows : List DRow} {j k : Nat} {r : DRow} (hr : rows[j]? = some r)
    (he : r.edges = [(0, 38, j), (39, 39, k), (40, 1114111, j)]) (c : Char) :
    qstep rows (some j) c.toNat = if c = '\'' then some k else some j := by
  have hc := char_range c
  rw [qstep_row hr, he]
  simp only [edgeNext, (quote_iff c).1]
  repeat' split
  all_goals first | rfl | omega

theorem step_in_dq {rows : List DRow} {j k : Nat} {r : DRow} (hr : rows[j]? = some r)
    (he : r.edges = [(0, 33, j), (34, 34, k), (35, 1114111, j)]) (c : Char) :
    qstep rows (some j) c.toNat = if c = '"' then some k else some j := by
  have hc := char_range c
  rw [qstep_row hr, he]
  simp only [edgeNext, (quote_iff c).2]
  repeat' split
  all_goals first | rfl | omega

theorem step_end {rows : List DRow} {j : Nat} {r : DRow} (hr : rows[j]? = some r) (he : r.edges = []) (c : Char) :
    qstep rows (some j) c.toNat = none := by
  rw [qstep_row hr, he]; rfl

/-- The text of a quoted rule with quote `q`. -/
def ClosedBy (q : Char) (w : JStr) : Prop := ∃ r, w = q :: r ∧ (r.takeWhile (· ≠ q)).length + 1 = r.length

theorem mWord_iff (w : JStr) : mWord w = some w.length ↔ ClosedBy '\'' w ∨ ClosedBy '"' w := by
  cases w with
  | nil => simp [mWord, ClosedBy]
  | cons q r =>
    simp only [mWord, ClosedBy, List.cons.injEq, List.length_cons]
    constructor
    · intro h
      split at h
      · rename_i hq
        split at h
        · injection h with h
          rcases hq with rfl | rfl
          · exact Or.inl ⟨r, ⟨rfl, rfl⟩, by omega⟩
          · exact Or.inr ⟨r, ⟨rfl, rfl⟩, by omega⟩
        · cases h
      · cases h
    · rintro (⟨_, ⟨rfl, rfl⟩, h⟩ | ⟨_, ⟨rfl, rfl⟩, h⟩)
      · rw [if_pos (Or.inl rfl)]
        rw [if_pos (by omega)]
        congr 1; omega
      · rw [if_pos (Or.inr rfl)]
        rw [if_pos (by omega)]
        congr 1; omega

/-- `WORD`. -/
theorem accepts_word (w : JStr) : accFrom dfa41 0 w = true ↔ mWord w = some w.length := by
  rw [mWord_iff]
  cases w with
  | nil =>
    refine ⟨fun h => (by cases h), ?_⟩
    rintro (⟨_, h, _⟩ | ⟨_, h, _⟩) <;> cases h
  | cons c w =>
    have hs : qstep dfa41 (some 0) c.toNat = if c = '"' then some 1 else if c = '\'' then some 2 else none := by
      rw [qstep_row rfl]
      simp only [edgeNext, (quote_iff c).1, (quote_iff c).2]
      repeat' split
      all_goals first | rfl | omega
    rw [accFrom_cons, hs]
    have h1 := accFrom_close (rows := dfa41) (j := 1) (k := 3) (q := '"') (step_in_dq rfl rfl) (step_end rfl rfl) rfl rfl w
    have h2 := accFrom_close (rows := dfa41) (j := 2) (k := 3) (q := '\'') (step_in_sq rfl rfl) (step_end rfl rfl) rfl rfl w
    simp only [ClosedBy, List.cons.injEq]
    by_cases hd : c = '"'
    · subst hd
      simp only [if_true, h1]
      constructor
      · intro h; exact Or.inr ⟨w, by simp, h⟩
      · rintro (⟨_, ⟨h, _⟩, _⟩ | ⟨_, ⟨_, rfl⟩, h⟩)
        · exact absurd h (by decide)
        · exact h
    · rw [if_neg hd]
      by_cases hq : c = '\''
      · subst hq
        simp only [if_true, h2]
        constructor
        · intro h; exact Or.inl ⟨w, by simp, h⟩
        · rintro (⟨_, ⟨_, rfl⟩, h⟩ | ⟨_, ⟨h, _⟩, _⟩)
          · exact h
          · exact absurd h (by decide)
      · simp [hd, hq]

theorem accepts_sq {rows : List DRow} {r0 r1 r2 : DRow} (hr : rows = [r0, r1, r2]) (he0 : r0.edges = [(39, 39, 1)])
    (he1 : r1.edges = [(0, 38, 1), (39, 39, 2), (40, 1114111, 1)]) (he2 : r2.edges = [])
    (ha : r0.acc = false ∧ r1.acc = false ∧ r2.acc = true) (w : JStr) :
    accFrom rows 0 w = true ↔ ClosedBy '\'' w := by
  cases w with
  | nil =>
    refine ⟨fun h => ?_, ?_⟩
    · subst hr; simp [accFrom_nil, accAt, ha.1] at h
    · rintro ⟨_, h, _⟩; cases h
  | cons c w =>
    have hs : qstep rows (some 0) c.toNat = if c = '\'' then some 1 else none := by
      subst hr
      rw [qstep_row rfl, he0]
      simp only [edgeNext, (quote_iff c).1]
      repeat' split
      all_goals first | rfl | omega
    have h2 := accFrom_close (rows := rows) (j := 1) (k := 2) (q := '\'')
      (step_in_sq (by subst hr; rfl) he1) (step_end (by subst hr; rfl) he2)
      (by subst hr; simp [accAt, ha.2.1]) (by subst hr; simp [accAt, ha.2.2]) w
    rw [accFrom_cons, hs]
    simp only [ClosedBy, List.cons.injEq]
    by_cases hq : c = '\''
    · subst hq
      simp only [if_true, h2]
      exact ⟨fun h => ⟨w, by simp, h⟩, fun ⟨_, ⟨_, e⟩, h⟩ => by subst e; exact h⟩
    · simp [hq]

theorem accepts_dq {rows : List DRow} {r0 r1 r2 : DRow} (hr : rows = [r0, r1, r2]) (he0 : r0.edges = [(34, 34, 1)])
    (he1 : r1.edges = [(0, 33, 1), (34, 34, 2), (35, 1114111, 1)]) (he2 : r2.edges = [])
    (ha : r0.acc = false ∧ r1.acc = false ∧ r2.acc = true) (w : JStr) :
    accFrom rows 0 w = true ↔ ClosedBy '"' w := by
  cases w with
  | nil =>
    refine ⟨fun h => ?_, ?_⟩
    · subst hr; simp [accFrom_nil, accAt, ha.1] at h
    · rintro ⟨_, h, _⟩; cases h
  | cons c w =>
    have hs : qstep rows (some 0) c.toNat = if c = '"' then some 1 else none := by
      subst hr
      rw [qstep_row rfl, he0]
      simp only [edgeNext, (quote_iff c).2]
      repeat' split
      all_goals first | rfl | omega
    have h2 := accFrom_close (rows := rows) (j := 1) (k := 2) (q := '"')
      (step_in_dq (by subst hr; rfl) he1) (step_end (by subst hr; rfl) he2)
      (by subst hr; simp [accAt, ha.2.1]) (by subst hr; simp [accAt, ha.2.2]) w
    rw [accFrom_cons, hs]
    simp only [ClosedBy, List.cons.injEq]
    by_cases hq : c = '"'
    · subst hq
      simp only [if_true, h2]
      exact ⟨fun h => ⟨w, by simp, h⟩, fun ⟨_, ⟨_, e⟩, h⟩ => by subst e; exact h⟩
    · simp [hq]

/-- `DATE` and `DATETIME`. -/
theorem accepts_date (w : JStr) : accFrom dfa38 0 w = true ↔ mDate w = some w.length := by
  rw [accepts_digitPat (p := j!"dddd-dd-dd") (by krfl) (by krfl)]
  simp only [mDate]
  constructor
  · rintro ⟨h1, h2⟩; rw [if_pos h1, h2]; rfl
  · intro h
    split at h
    · rename_i h1; injection h with h; exact ⟨h1, h.symm⟩
    · cases h

theorem accepts_datetime (w : JStr) : accFrom dfa39 0 w = true ↔ mDateTime w = some w.length := by
  rw [accepts_digitPat (p := j!"dddd-dd-dd dd:dd:dd") (by krfl) (by krfl)]
  simp only [mDateTime]
  constructor
  · rintro ⟨h1, h2⟩; rw [if_pos h1, h2]; rfl
  · intro h
    split at h
    · rename_i h1; injection h with h; exact ⟨h1, h.symm⟩
    · cases h

/-- `ALPHANUMERIC` accepts nothing `FIELD` does not. -/
theorem accepts_alnum {w : JStr} (h : accFrom dfa45 0 w = true) : mField w = some w.length := by
  have hp : patterns dfa45 30 0 = some [[(48, 57)], [(65, 90)], [(97, 122)]] := by krfl
  rw [patterns_accept (List.all_eq_true.mp (by krfl : dfa45.all (fun r => apart r.edges) = true)) 30 0 _ hp w] at h
  obtain ⟨p, hp, hf⟩ := h
  have hw : ∃ c, w = [c] ∧ isFieldChar c = true := by
    simp only [List.mem_cons, List.not_mem_nil, or_false] at hp
    cases w with
    | nil => rcases hp with rfl | rfl | rfl <;> cases hf
    | cons c w =>
      cases w with
      | cons d w => rcases hp with rfl | rfl | rfl <;> simp [fits] at hf
      | nil =>
        refine ⟨c, rfl, ?_⟩
        simp only [isFieldChar, isDigit, Bool.or_eq_true, Bool.and_eq_true, decide_eq_true_eq, beq_iff_eq]
        rcases hp with rfl | rfl | rfl <;>
          simp only [fits, Bool.and_eq_true, decide_eq_true_eq, and_true] at hf <;> omega
  obtain ⟨c, rfl, hc⟩ := hw
  exact nz_iff.mpr ⟨by simp, by simp [hc]⟩

/-! ### The literal rules -/

theorem full_lit (l w : JStr) : mLit l w = some w.length ↔ w ∈ [l] := by
  constructor
  · intro h; simp [mLit_full h]
  · intro h
    simp only [List.mem_singleton] at h
    subst h
    simp [mLit]

theorem full_lit2 (l1 l2 w : JStr) (h12 : l1.isPrefixOf l2 = false ∨ l1 = l2) :
    mLit2 l1 l2 w = some w.length ↔ w ∈ [l1, l2] := by
  constructor
  · intro h; rcases mLit2_full h with e | e <;> simp [e]
  · intro h
    simp only [List.mem_cons, List.not_mem_nil, or_false] at h
    rcases h with rfl | rfl
    · simp [mLit2]
    · rcases h12 with h | rfl
      · simp [mLit2, h, mLit]
      · simp [mLit2]

end BoolParser
