import Verif.Lemmas.VersionCmp
import Verif.Spec.Releases
/-!
# Comparison of versions with a stage
-/

namespace BoolParser
open Spec VItem

/-! ### Words -/

/-- A character of a word in small letters. -/
def Letter (c : Char) : Prop := isDigit c = false ∧ c ≠ '.' ∧ c ≠ '-'

theorem alphabet_all : ∀ p ∈ alphabet, lowerChar p.1 = p.2 ∧ lowerChar p.2 = p.2 ∧
    (isDigit p.2 = false ∧ p.2 ≠ '.' ∧ p.2 ≠ '-') ∧ (isDigit p.1 = false ∧ p.1 ≠ '+' ∧ p.1 ≠ '-') ∧
    (p.2 ≠ '+') := by decide +kernel

theorem small_lower {w l : JStr} (h : Small w l) : lower w = l ∧ l ≠ [] ∧ ∀ c ∈ l, Letter c := by
  obtain ⟨hne, h⟩ := h
  have : lower w = l ∧ ∀ c ∈ l, Letter c := by
    clear hne
    induction h with
    | nil => exact ⟨rfl, by simp⟩
    | @cons c s w l h _ ih =>
      obtain ⟨p, hp, hc, rfl⟩ := h
      obtain ⟨h1, h2, h3, _⟩ := alphabet_all p hp
      refine ⟨?_, ?_⟩
      · show lowerChar c :: lower w = _
        rw [ih.1]
        rcases hc with rfl | rfl
        · rw [h1]
        · rw [h2]
      · intro x hx
        rcases List.mem_cons.mp hx with rfl | hx
        · exact h3
        · exact ih.2 x hx
  refine ⟨this.1, ?_, this.2⟩
  rintro rfl
  cases h; exact hne rfl

theorem alphabet_plain : ∀ p ∈ alphabet, p.2.toNat < 0x0660 := by decide +kernel

theorem asciiDigits_small {w l : JStr} (h : Small w l) : asciiDigits l = l := by
  apply asciiDigits_plain
  obtain ⟨hne, h⟩ := h
  clear hne
  induction h with
  | nil => simp
  | cons h _ ih =>
    obtain ⟨p, hp, _, rfl⟩ := h
    intro x hx
    rcases List.mem_cons.mp hx with rfl | hx
    · exact alphabet_plain p hp
    · exact ih x hx

/-- The name a stage has inside `ComparableVersion`. -/
def qual : Stage → JStr
  | .alpha => j!"alpha"
  | .beta => j!"beta"
  | .milestone => j!"milestone"
  | .rc => j!"rc"
  | .snapshot => j!"snapshot"
  | .release => []
  | .sp => j!"sp"
  | .word w => w

/-- A word that stands for itself. -/
def Known : Stage → Prop
  | .word w => w ∉ stageNames.map Prod.fst ∧ w ≠ []
  | _ => True

theorem names_qual : ∀ p ∈ stageNames, ∀ b, mkStr p.1 b = .str (qual p.2) := by
  intro p hp b
  simp only [stageNames, List.mem_cons, List.not_mem_nil, or_false] at hp
  rcases hp with rfl | rfl | rfl | rfl | rfl | rfl | rfl | rfl | rfl <;> cases b <;> rfl

theorem names_known : ∀ p ∈ stageNames, Known p.2 := by
  intro p hp
  simp only [stageNames, List.mem_cons, List.not_mem_nil, or_false] at hp
  rcases hp with rfl | rfl | rfl | rfl | rfl | rfl | rfl | rfl | rfl <;> trivial

theorem short_qual : ∀ p ∈ shortNames, mkStr p.1 true = .str (qual p.2) ∧ Known p.2 := by
  intro p hp
  simp only [shortNames, List.mem_cons, List.not_mem_nil, or_false] at hp
  rcases hp with rfl | rfl | rfl <;> exact ⟨rfl, trivial⟩

theorem means_qual {w : JStr} {b : Bool} {x : Stage} (h : Means w b x) (hw : w ≠ []) :
    mkStr w b = .str (qual x) ∧ Known x := by
  cases h with
  | name b h => exact ⟨names_qual _ h b, names_known _ h⟩
  | short h => exact short_qual _ h
  | other h1 h2 =>
    refine ⟨?_, h1, hw⟩
    have h1' := h1
    simp only [stageNames, List.map_cons, List.map_nil, List.mem_cons, not_or] at h1'
    unfold mkStr VItem.alias
    cases b with
    | false => simp [h1', qual]
    | true =>
      have h2 := h2 rfl
      simp only [shortNames, List.map_cons, List.map_nil, List.mem_cons, not_or] at h2
      simp [h1', h2, qual]

theorem word_index {w : JStr} (h : Known (.word w)) : qualIndex w = none := by
  obtain ⟨h1, h2⟩ := h
  simp only [stageNames, List.map_cons, List.map_nil, List.mem_cons, not_or] at h1
  unfold qualIndex
  simp [h1, h2]

theorem cmpNats_refl (a : List ℕ) : cmpNats a a = .eq := by
  induction a with
  | nil => rfl
  | cons x xs ih => simp only [cmpNats]; rw [if_neg (by omega), if_neg (by omega)]; exact ih

theorem cmp_words (v w : JStr) : cmpStr (j!"7-" ++ v) (j!"7-" ++ w) = cmpStr v w := by
  unfold cmpStr
  rfl

/-- The comparison of the names agrees with the order of the stages. -/
def StageAgrees (o : Ordering) (x y : Stage) : Prop :=
  match o with
  | .lt => x.Before y
  | .eq => x = y
  | .gt => y.Before x

theorem comparable_word {w : JStr} (h : Known (.word w)) : comparableQualifier w = j!"7-" ++ w := by
  unfold comparableQualifier; rw [word_index h]

/-- What follows the rank in the comparable name. -/
def rankTail : Stage → List ℕ
  | .word w => 45 :: utf16 w
  | _ => []

theorem comparable_units {x : Stage} (hx : Known x) :
    utf16 (comparableQualifier (qual x)) = (48 + x.rank) :: rankTail x := by
  cases x
  case word w => rw [show qual (.word w) = w from rfl, comparable_word hx]; rfl
  all_goals rfl

theorem stage_cmp {x y : Stage} (hx : Known x) (hy : Known y) :
    StageAgrees (cmpStr (comparableQualifier (qual x)) (comparableQualifier (qual y))) x y := by
  rw [cmpStr, comparable_units hx, comparable_units hy, cmpNats]
  rcases Nat.lt_trichotomy x.rank y.rank with h | h | h
  · rw [if_pos (by omega)]; exact .inl h
  · rw [if_neg (by omega), if_neg (by omega)]
    cases x <;> cases y <;> first | (cases h; done) | exact rfl | skip
    rename_i v w
    show StageAgrees (cmpNats (45 :: utf16 v) (45 :: utf16 w)) _ _
    rw [cmpNats, if_neg (by omega), if_neg (by omega), cmpNats_eq]
    rcases lt_trichotomy (utf16 v) (utf16 w) with h | h | h
    · rw [(cmp_eq_lt_iff _ _).mpr h]; exact .inr ⟨v, w, rfl, rfl, h⟩
    · rw [(cmp_eq_eq_iff _ _).mpr h]; exact congrArg _ (utf16_inj h)
    · rw [(cmp_eq_gt_iff _ _).mpr h]; exact .inr ⟨w, v, rfl, rfl, h⟩
  · rw [if_neg (by omega), if_pos (by omega)]; exact .inl h

theorem release_units : utf16 j!"5" = [48 + Stage.release.rank] := rfl

theorem stage_null (x : Stage) : cmpNull (.str (qual x)) =
    cmpStr (comparableQualifier (qual x)) (comparableQualifier (qual .release)) := rfl

/-! ### Items -/

/-- The items after the numbers. -/
def tailItems (x : Stage) (n : ℕ) : List VItem :=
  match x with
  | .release => []
  | x => [.list (if n = 0 then [.str (qual x)] else [.str (qual x), .list [.int n]])]

theorem tailItems_eq {x : Stage} (h : x ≠ .release) (n : ℕ) :
    tailItems x n = [.list (if n = 0 then [.str (qual x)] else [.str (qual x), .list [.int n]])] := by
  cases x <;> first | exact absurd rfl h | rfl

theorem cmpStr_refl (a : JStr) : cmpStr a a = .eq := cmpNats_refl _

/-- Agreement of the stage and the build. -/
def EndAgrees (o : Ordering) (x : Stage) (n : ℕ) (y : Stage) (m : ℕ) : Prop :=
  match o with
  | .lt => x.Before y ∨ x = y ∧ n < m
  | .eq => x = y ∧ n = m
  | .gt => y.Before x ∨ y = x ∧ m < n

/-- The rest of the innermost list. -/
def buildItems (n : ℕ) : List VItem := if n = 0 then [] else [.list [.int n]]

theorem build_cmp (n m : ℕ) : cmpList (buildItems n) (buildItems m) = compare n m := by
  unfold buildItems
  by_cases hn : n = 0
  · subst hn
    by_cases hm : m = 0
    · subst hm; simp [cmpList, cmpNulls]
    · rw [if_pos rfl, if_neg hm]
      simp [cmpList, cmpNulls, cmpNull, hm, (Nat.compare_eq_lt.mpr (Nat.pos_of_ne_zero hm))]
  · by_cases hm : m = 0
    · subst hm; rw [if_pos rfl, if_neg hn]
      simp [cmpList, cmpNulls, cmpNull, hn, (Nat.compare_eq_gt.mpr (Nat.pos_of_ne_zero hn))]
    · rw [if_neg hn, if_neg hm]
      simp [cmpList, cmpNulls, cmpItem]

theorem tail_eq' {x : Stage} (h : x ≠ .release) (n : ℕ) : tailItems x n = [.list (.str (qual x) :: buildItems n)] := by
  rw [tailItems_eq h]; unfold buildItems; split <;> rfl

theorem tail_cmp {x y : Stage} (hx : Known x) (hy : Known y) {n m : ℕ} (hn : x = .release → n = 0)
    (hm : y = .release → m = 0) : EndAgrees (cmpList (tailItems x n) (tailItems y m)) x n y m := by
  have key := stage_cmp hx hy
  by_cases ex : x = .release
  · subst ex
    by_cases ey : y = .release
    · subst ey; rw [hn rfl, hm rfl]; simp [tailItems, cmpList, cmpNulls, EndAgrees]
    · rw [tail_eq' ey]
      simp only [tailItems, cmpList, cmpNulls, cmpNull]
      rw [show cmpStr (comparableQualifier (qual y)) j!"5" =
        (cmpStr (comparableQualifier (qual .release)) (comparableQualifier (qual y))).swap from cmpStr_swap _ _, swap_swap]
      revert key
      cases cmpStr (comparableQualifier (qual .release)) (comparableQualifier (qual y)) <;> intro key
      · exact .inl key
      · exact absurd key.symm ey
      · exact .inl key
  · by_cases ey : y = .release
    · subst ey
      rw [tail_eq' ex]
      simp only [tailItems, cmpList, cmpNulls, cmpNull]
      revert key
      rw [show comparableQualifier (qual .release) = j!"5" from rfl]
      cases cmpStr (comparableQualifier (qual x)) j!"5" <;> intro key
      · exact .inl key
      · exact absurd key ex
      · exact .inl key
    · rw [tail_eq' ex, tail_eq' ey]
      have : cmpList [VItem.list (.str (qual x) :: buildItems n)] [VItem.list (.str (qual y) :: buildItems m)] =
          (cmpStr (comparableQualifier (qual x)) (comparableQualifier (qual y))).then (compare n m) := by
        rw [← build_cmp n m]
        conv_lhs => unfold cmpList cmpItem
        rw [show cmpList [] [] = .eq by unfold cmpList cmpNulls; rfl]
        conv_lhs => unfold cmpList cmpItem
        cases (cmpStr (comparableQualifier (qual x)) (comparableQualifier (qual y))).then (cmpList (buildItems n) (buildItems m)) <;> rfl
      rw [this]
      revert key
      cases cmpStr (comparableQualifier (qual x)) (comparableQualifier (qual y)) <;> intro key
      · exact .inl key
      · have key : x = y := key
        rcases Nat.lt_trichotomy n m with h | h | h
        · rw [Nat.compare_eq_lt.mpr h]; exact .inr ⟨key, h⟩
        · rw [Nat.compare_eq_eq.mpr h]; exact ⟨key, h⟩
        · rw [Nat.compare_eq_gt.mpr h]; exact .inr ⟨key.symm, h⟩
      · exact .inl key

/-! ### Numbers before the stage -/

/-- No trailing zero. -/
def Stripped (v : List ℕ) : Prop := ∀ h : v ≠ [], v.getLast h ≠ 0

theorem stripped_strip (v : List ℕ) : Stripped (strip v) := by
  intro h
  unfold strip at h ⊢
  rw [List.getLast_reverse]
  have h' : v.reverse.dropWhile (· == 0) ≠ [] := fun e => h (by rw [e]; rfl)
  have := List.head_dropWhile_not (fun n : ℕ => n == 0) h'
  simpa using this

theorem stripped_tail {x : ℕ} {v : List ℕ} (h : Stripped (x :: v)) : Stripped v := by
  intro hv
  have := h (by simp)
  rwa [List.getLast_cons hv] at this

theorem stripped_pos {v : List ℕ} (h : Stripped v) (hv : v ≠ []) : Earlier [] v := by
  have hl := h hv
  clear h
  induction v with
  | nil => exact absurd rfl hv
  | cons x xs ih =>
    by_cases hx : x = 0
    · subst hx
      have hxs : xs ≠ [] := by rintro rfl; exact hl rfl
      obtain ⟨i, h1, h2⟩ := ih hxs (by rwa [List.getLast_cons hxs] at hl)
      refine ⟨i + 1, ?_, by rw [component_cons_succ, component_nil]; rw [component_nil] at h2; exact h2⟩
      intro j hj
      cases j with
      | zero => rfl
      | succ j => rw [component_cons_succ, component_nil, ← component_nil j]; exact h1 j (by omega)
    · exact ⟨0, by intro j hj; omega, by rw [component_nil, component_cons_zero]; omega⟩

/-- Three-way outcome of the numbers, then of the rest. -/
def NumAgrees (o : Ordering) (v w : List ℕ) (T : Ordering) : Prop :=
  (o = .lt ∧ Earlier v w) ∨ (o = .gt ∧ Earlier w v) ∨ (o = T ∧ SameVersion v w)

/-- Nothing, or one list. -/
def Ending (t : List VItem) : Prop := t = [] ∨ ∃ xs, t = [.list xs]

theorem cmpNulls_numbers {w : List ℕ} (h : Earlier [] w) (t : List VItem) : cmpNulls (w.map .int ++ t) = .lt := by
  induction w with
  | nil => obtain ⟨i, _, h2⟩ := h; omega
  | cons y ys ih =>
    rw [List.map_cons, List.cons_append, cmpNulls, cmpNull_int]
    by_cases hy : y = 0
    · subst hy
      have : Earlier [] ys := by
        obtain ⟨i, h1, h2⟩ := h
        cases i with
        | zero => rw [component_nil, component_cons_zero] at h2; omega
        | succ i =>
          refine ⟨i, fun j hj => ?_, by rw [component_cons_succ] at h2; rw [component_nil] at h2 ⊢; exact h2⟩
          have := h1 (j + 1) (by omega)
          rwa [component_cons_succ, component_nil, ← component_nil j] at this
      rw [ih this]; rfl
    · rw [Nat.compare_eq_gt.mpr (by omega)]; rfl

theorem cmpList_nil_right (xs : List VItem) : cmpList xs [] = (cmpNulls xs).swap := by
  induction xs with
  | nil => unfold cmpList; rfl
  | cons x xs ih =>
    have : cmpList (x :: xs) [] = (cmpNull x).then (cmpList xs []) := by conv_lhs => unfold cmpList
    rw [this, ih, cmpNulls, then_swap, swap_swap]

theorem cmpList_nil_left (ys : List VItem) : cmpList [] ys = cmpNulls ys := by unfold cmpList; rfl

theorem cmpList_cons (x y : VItem) (xs ys : List VItem) :
    cmpList (x :: xs) (y :: ys) = (cmpItem x y).then (cmpList xs ys) := by conv_lhs => unfold cmpList

theorem numbers_cmp {v w : List ℕ} (hv : Stripped v) (hw : Stripped w) {t t' : List VItem} (ht : Ending t)
    (ht' : Ending t') :
    NumAgrees (cmpList (v.map .int ++ t) (w.map .int ++ t')) v w (cmpList t t') := by
  induction v generalizing w with
  | nil =>
    cases w with
    | nil => exact .inr (.inr ⟨rfl, fun _ => rfl⟩)
    | cons y ys =>
      have he := stripped_pos hw (by simp)
      refine .inl ⟨?_, he⟩
      rcases ht with rfl | ⟨xs, rfl⟩
      · rw [List.map_nil, List.nil_append, cmpList_nil_left]; exact cmpNulls_numbers he _
      · rw [List.map_nil, List.nil_append, List.map_cons, List.cons_append, cmpList_cons]
        unfold cmpItem; rfl
  | cons x xs ih =>
    cases w with
    | nil =>
      have he := stripped_pos hv (by simp)
      refine .inr (.inl ⟨?_, he⟩)
      rcases ht' with rfl | ⟨ys, rfl⟩
      · rw [List.map_nil, List.nil_append, cmpList_nil_right, cmpNulls_numbers he]; rfl
      · rw [List.map_nil, List.nil_append, List.map_cons, List.cons_append, cmpList_cons]
        unfold cmpItem; rfl
    | cons y ys =>
      rw [List.map_cons, List.map_cons, List.cons_append, List.cons_append, cmpList_cons]
      have hc : cmpItem (.int x) (.int y) = compare x y := by unfold cmpItem; rfl
      rw [hc]
      rcases Nat.lt_trichotomy x y with h | h | h
      · rw [Nat.compare_eq_lt.mpr h]; exact .inl ⟨rfl, 0, by intro j hj; omega, h⟩
      · subst h
        rw [Nat.compare_eq_eq.mpr rfl]
        have lift : ∀ {v w : List ℕ}, Earlier v w → Earlier (x :: v) (x :: w) := by
          rintro v w ⟨i, h1, h2⟩
          refine ⟨i + 1, fun j hj => ?_, h2⟩
          cases j with
          | zero => rfl
          | succ j => exact h1 j (by omega)
        rcases ih (stripped_tail hv) (stripped_tail hw) with ⟨h1, h2⟩ | ⟨h1, h2⟩ | ⟨h1, h2⟩
        · exact .inl ⟨h1, lift h2⟩
        · exact .inr (.inl ⟨h1, lift h2⟩)
        · refine .inr (.inr ⟨h1, fun i => ?_⟩)
          cases i with
          | zero => rfl
          | succ i => exact h2 i
      · rw [Nat.compare_eq_gt.mpr h]; exact .inr (.inl ⟨rfl, 0, by intro j hj; omega, h⟩)

/-! ### From the text to the items -/

theorem parseGo_letters {l : JStr} (hl : ∀ c ∈ l, Letter c) (r : JStr) (segs : List (List VItem)) (cur : List VItem)
    (buf : JStr) (dig : Bool) (hb : buf = [] ∨ dig = false) (hne : l ≠ []) :
    parseGo (l ++ r) segs cur buf dig = parseGo r segs cur (l.reverse ++ buf) false := by
  induction l generalizing buf dig with
  | nil => exact absurd rfl hne
  | cons c cs ih =>
    obtain ⟨h0, h1, h2⟩ := hl c (by simp)
    have h3 : ¬ (dig = true ∧ buf ≠ []) := by
      rintro ⟨e1, e2⟩; rcases hb with h | h
      · exact e2 h
      · rw [h] at e1; cases e1
    rw [List.cons_append, parseGo, if_neg h1, if_neg h2, if_neg (by rw [h0]; simp), if_neg h3]
    by_cases hcs : cs = []
    · subst hcs; rfl
    · rw [ih (fun c hc => hl c (by simp [hc])) _ _ (.inr rfl) hcs]; simp

/-- The numbers, then a dash or a letter: the list of the numbers is closed. -/
theorem parseGo_head {p : JStr} {ps : List JStr} (hp : IsDigits p) (hps : ∀ q ∈ ps, IsDigits q) {sep l r : JStr}
    (hs : Dash sep) (hl : ∀ c ∈ l, Letter c) (hne : l ≠ []) (segs : List (List VItem)) (cur : List VItem) (dig : Bool) :
    parseGo (p ++ dots ps ++ (sep ++ (l ++ r))) segs cur [] dig =
      parseGo r (segs ++ [cur.reverse ++ (VItem.int (natOfDigits 0 p) :: ps.map (fun q => VItem.int (natOfDigits 0 q)))])
        [] l.reverse false := by
  induction ps generalizing p cur dig with
  | nil =>
    rw [dots, List.append_nil, parseGo_digits hp.2 _ _ _ _ _ (.inl rfl) hp.1, List.append_nil]
    have hpr : p.reverse ≠ [] := by simpa using hp.1
    rcases hs with rfl | rfl
    · rw [List.nil_append]
      cases l with
      | nil => exact absurd rfl hne
      | cons c cs =>
        obtain ⟨h0, h1, h2⟩ := hl c (by simp)
        rw [List.cons_append, parseGo, if_neg h1, if_neg h2, if_neg (by rw [h0]; simp), if_pos ⟨rfl, hpr⟩]
        by_cases hcs : cs = []
        · subst hcs; simp [mkItem]
        · rw [parseGo_letters (fun c hc => hl c (by simp [hc])) _ _ _ _ _ (.inr rfl) hcs]; simp [mkItem]
    · rw [List.cons_append, List.nil_append, parseGo, if_neg (by decide), if_pos rfl]
      simp only [hpr, if_false]
      rw [parseGo_letters hl _ _ _ _ _ (.inl rfl) hne]; simp [mkItem]
  | cons q qs ih =>
    have : p ++ dots (q :: qs) ++ (sep ++ (l ++ r)) = p ++ ('.' :: (q ++ dots qs ++ (sep ++ (l ++ r)))) := by
      simp [dots]
    rw [this, parseGo_digits hp.2 _ _ _ _ _ (.inl rfl) hp.1, parseGo, if_pos rfl]
    simp only
    rw [ih (hps q (by simp)) (fun q hq => hps q (by simp [hq]))]
    simp [mkItem, hp.1]

theorem lower_version {s : JStr} {v : List ℕ} (h : VersionText s v) : lower s = s := by
  obtain ⟨p, ps, hp, hps, rfl, rfl⟩ := h
  rw [lower_append, lower_digits hp.2, lower_dots hps]

theorem lower_dash {s : JStr} (h : Dash s) : lower s = s := by rcases h with rfl | rfl <;> rfl

theorem asciiDigits_version {s : JStr} {v : List ℕ} (h : VersionText s v) : asciiDigits s = s := by
  obtain ⟨p, ps, hp, hps, rfl, rfl⟩ := h
  rw [asciiDigits_append, asciiDigits_digits hp.2, asciiDigits_dots hps]

theorem asciiDigits_dash {s : JStr} (h : Dash s) : asciiDigits s = s := by rcases h with rfl | rfl <;> rfl

theorem normRev_list (x : VItem) (xs ys : List VItem) :
    normRev (.list (x :: xs) :: ys) = .list (x :: xs) :: normRev ys := by
  rw [normRev]; rfl

theorem normalize_end (v : List ℕ) (x : VItem) (xs : List VItem) :
    normalize (v.map .int ++ [.list (x :: xs)]) = (strip v).map .int ++ [.list (x :: xs)] := by
  have := normalize_ints v
  unfold normalize at this ⊢
  rw [List.reverse_append, List.reverse_singleton, List.singleton_append, normRev_list, List.reverse_cons, this]

theorem normalize_empty (v : List ℕ) : normalize (v.map .int ++ [.list []]) = (strip v).map .int := by
  have := normalize_ints v
  unfold normalize at this ⊢
  rw [List.reverse_append, List.reverse_singleton, List.singleton_append, normRev, if_pos (show (VItem.list []).isNull = true from rfl), this]

theorem null_word {x : Stage} (hx : Known x) : (VItem.str (qual x)).isNull = true ↔ x = .release := by
  have key := stage_cmp hx (y := .release) trivial
  show (cmpStr (comparableQualifier (qual x)) (comparableQualifier (qual .release)) == .eq) = true ↔ _
  revert key
  cases hc : cmpStr (comparableQualifier (qual x)) (comparableQualifier (qual .release)) <;> intro key
  · constructor
    · intro h; cases h
    · rintro rfl
      rw [cmpStr_refl] at hc; cases hc
  · exact ⟨fun _ => key, fun _ => rfl⟩
  · constructor
    · intro h; cases h
    · rintro rfl
      rw [cmpStr_refl] at hc; cases hc

theorem normalize_word {x : Stage} (hx : Known x) (hr : x ≠ .release) : normalize [.str (qual x)] = [.str (qual x)] := by
  have : (VItem.str (qual x)).isNull = false := by
    cases h : (VItem.str (qual x)).isNull with
    | false => rfl
    | true => exact absurd ((null_word hx).mp h) hr
  unfold normalize
  simp [normRev, this]

theorem nest_word {x : Stage} (hx : Known x) (v : List ℕ) :
    nest [v.map .int, [.str (qual x)]] = (strip v).map .int ++ tailItems x 0 := by
  by_cases hr : x = .release
  · subst hr
    show normalize (v.map .int ++ [.list (normalize [.str []])]) = _
    rw [show normalize [VItem.str []] = [] from rfl, normalize_empty]; simp [tailItems]
  · show normalize (v.map .int ++ [.list (normalize [.str (qual x)])]) = _
    rw [normalize_word hx hr, normalize_end, tailItems_eq hr, if_pos rfl]

theorem nest_build {x : Stage} (hx : Known x) (hr : x ≠ .release) (v : List ℕ) (n : ℕ) :
    nest [v.map .int, [.str (qual x)], [.int n]] = (strip v).map .int ++ tailItems x n := by
  show normalize (v.map .int ++ [.list (normalize ([.str (qual x)] ++ [.list (normalize [.int n])]))]) = _
  by_cases hn : n = 0
  · subst hn
    have : normalize [VItem.str (qual x), VItem.list []] = [.str (qual x)] := by
      have := normalize_word hx hr
      unfold normalize at this ⊢
      rw [show [VItem.str (qual x), VItem.list []].reverse = [.list [], .str (qual x)] from rfl, normRev,
        if_pos (show (VItem.list []).isNull = true from rfl)]
      exact this
    rw [show normalize [VItem.int 0] = [] from rfl, List.singleton_append, this, normalize_end, tailItems_eq hr, if_pos rfl]
  · have h1 : normalize [VItem.int n] = [.int n] := by
      unfold normalize; simp [normRev, isNull, hn]
    have h2 : normalize [VItem.str (qual x), VItem.list [.int n]] = [.str (qual x), .list [.int n]] := by
      have := normalize_word hx hr
      unfold normalize at this ⊢
      rw [show [VItem.str (qual x), VItem.list [.int n]].reverse = [.list [.int n], .str (qual x)] from rfl, normRev_list,
        List.reverse_cons]
      rw [show [VItem.str (qual x)].reverse = [.str (qual x)] from rfl] at this
      rw [this]; rfl
    rw [h1, List.singleton_append, h2, normalize_end, tailItems_eq hr, if_neg hn]

theorem ints_eq (p : JStr) (ps : List JStr) :
    VItem.int (natOfDigits 0 p) :: ps.map (fun q => VItem.int (natOfDigits 0 q)) =
      (digitsValue p :: ps.map digitsValue).map .int := by
  rw [List.map_cons, List.map_map, digitsValue_eq]
  congr 2
  funext q
  exact congrArg _ (digitsValue_eq q).symm

/-- What a version with a stage becomes. -/
theorem parseVersion_release {s : JStr} {a : Release} (h : ReleaseText s a) :
    parseVersion s = (strip a.numbers).map .int ++ tailItems a.stage a.build ∧ Known a.stage ∧
      (a.stage = .release → a.build = 0) := by
  cases h with
  | plain h => exact ⟨by rw [parseVersion_text h]; simp [tailItems], trivial, fun _ => rfl⟩
  | @staged s sep w l v x hv hs hw hm =>
    obtain ⟨e, hne, hl⟩ := small_lower hw
    obtain ⟨e1, hk⟩ := means_qual hm hne
    refine ⟨?_, hk, fun _ => rfl⟩
    unfold parseVersion
    rw [lower_append, lower_append, lower_version hv, lower_dash hs, e, asciiDigits_append, asciiDigits_append,
      asciiDigits_version hv, asciiDigits_dash hs, asciiDigits_small hw]
    obtain ⟨p, ps, hp, hps, rfl, rfl⟩ := hv
    have := parseGo_head (r := []) hp hps hs hl hne [] [] false
    rw [List.append_nil, ← List.append_assoc] at this
    rw [this, ints_eq]
    rw [parseGo, if_neg (by simpa using hne)]
    simp only [List.reverse_reverse, List.reverse_nil, List.nil_append, List.reverse_singleton, mkItem,
      Bool.false_eq_true, if_false, e1]
    exact nest_word hk _
  | @numbered s sep w l q v x hv hs hw hm hr hq =>
    obtain ⟨e, hne, hl⟩ := small_lower hw
    obtain ⟨e1, hk⟩ := means_qual hm hne
    refine ⟨?_, hk, fun h => absurd h hr⟩
    unfold parseVersion
    rw [lower_append, lower_append, lower_append, lower_version hv, lower_dash hs, e, lower_digits hq.2,
      asciiDigits_append, asciiDigits_append, asciiDigits_append,
      asciiDigits_version hv, asciiDigits_dash hs, asciiDigits_small hw, asciiDigits_digits hq.2]
    obtain ⟨p, ps, hp, hps, rfl, rfl⟩ := hv
    have := parseGo_head (r := q) hp hps hs hl hne [] [] false
    rw [show p ++ dots ps ++ sep ++ l ++ q = p ++ dots ps ++ (sep ++ (l ++ q)) by simp, this, ints_eq]
    cases q with
    | nil => exact absurd rfl hq.1
    | cons c cs =>
      have hq' := hq.2
      simp only [List.all_cons, Bool.and_eq_true] at hq'
      have h1 : c ≠ '.' := digit_ne hq'.1 (by decide)
      have h2 : c ≠ '-' := digit_ne hq'.1 (by decide)
      rw [parseGo, if_neg h1, if_neg h2, if_pos hq'.1, if_pos ⟨rfl, by simpa using hne⟩]
      have h3 : parseGo cs
          (([] : List (List VItem)) ++ [[].reverse ++ (digitsValue p :: ps.map digitsValue).map .int] ++
            [(mkStr l.reverse.reverse true :: []).reverse]) [] [c] true =
          [(digitsValue p :: ps.map digitsValue).map .int, [.str (qual x)], [.int (digitsValue (c :: cs))]] := by
        have h4 : ∀ segs, parseGo cs segs [] [c] true = segs ++ [[.int (digitsValue (c :: cs))]] := by
          intro segs
          by_cases hcs : cs = []
          · subst hcs; simp [parseGo, mkItem, digitsValue_eq]
          · have := parseGo_digits hq'.2 [] segs [] [c] true (.inr rfl) hcs
            rw [List.append_nil] at this
            rw [this, parseGo]
            simp [mkItem, digitsValue_eq]
        rw [h4, List.reverse_reverse, e1]; rfl
      rw [h3]
      exact nest_build hk hr _ _
  | @dashed s sep w l q v x hv hs hw hm hr hq =>
    obtain ⟨e, hne, hl⟩ := small_lower hw
    obtain ⟨e1, hk⟩ := means_qual hm hne
    refine ⟨?_, hk, fun h => absurd h hr⟩
    unfold parseVersion
    rw [lower_append, lower_append, lower_append, lower_append, lower_version hv, lower_dash hs, e, lower_digits hq.2,
      show lower ['-'] = ['-'] from rfl, asciiDigits_append, asciiDigits_append, asciiDigits_append, asciiDigits_append,
      asciiDigits_version hv, asciiDigits_dash hs, asciiDigits_small hw, asciiDigits_digits hq.2,
      show asciiDigits ['-'] = ['-'] from rfl]
    obtain ⟨p, ps, hp, hps, rfl, rfl⟩ := hv
    have := parseGo_head (r := '-' :: q) hp hps hs hl hne [] [] false
    rw [show p ++ dots ps ++ sep ++ l ++ ['-'] ++ q = p ++ dots ps ++ (sep ++ (l ++ '-' :: q)) by simp, this, ints_eq]
    rw [parseGo, if_neg (by decide), if_pos rfl]
    have hlr : l.reverse ≠ [] := by simpa using hne
    simp only [hlr, if_false]
    have h5 := parseGo_digits hq.2 [] (([] : List (List VItem)) ++ [[].reverse ++ (digitsValue p :: ps.map digitsValue).map .int] ++
            [(mkItem false l.reverse.reverse :: []).reverse]) [] [] false (.inl rfl) hq.1
    rw [List.append_nil] at h5
    rw [h5, parseGo, List.append_nil, if_neg (by simpa using hq.1)]
    have e2 : mkItem false l.reverse.reverse = .str (qual x) := by rw [List.reverse_reverse]; exact e1
    have e3 : mkItem true q.reverse.reverse = .int (digitsValue q) := by
      rw [List.reverse_reverse, digitsValue_eq]; rfl
    rw [e2, e3]
    exact nest_build hk hr _ _

theorem tail_ending (x : Stage) (n : ℕ) : Ending (tailItems x n) := by
  cases x <;> first | exact .inl rfl | exact .inr ⟨_, rfl⟩

/-- Outcome of a three-way comparison of versions with a stage. -/
def ReleaseAgrees (o : Ordering) (a b : Release) : Prop :=
  match o with
  | .lt => a.Before b
  | .eq => a.Same b
  | .gt => b.Before a

theorem earlier_strip {v w : List ℕ} : Earlier (strip v) (strip w) ↔ Earlier v w := by
  unfold Earlier; simp only [component_strip]

theorem same_strip {v w : List ℕ} : SameVersion (strip v) (strip w) ↔ SameVersion v w := by
  unfold SameVersion; simp only [component_strip]

theorem cmpVersion_release {s t : JStr} {a b : Release} (hs : ReleaseText s a) (ht : ReleaseText t b) :
    ReleaseAgrees (cmpVersion s t) a b := by
  obtain ⟨e1, k1, n1⟩ := parseVersion_release hs
  obtain ⟨e2, k2, n2⟩ := parseVersion_release ht
  unfold cmpVersion
  rw [e1, e2]
  have h1 := tail_cmp k1 k2 n1 n2
  rcases numbers_cmp (stripped_strip a.numbers) (stripped_strip b.numbers) (tail_ending a.stage a.build)
    (tail_ending b.stage b.build) with ⟨h, h'⟩ | ⟨h, h'⟩ | ⟨h, h'⟩
  · rw [h]; exact .inl (earlier_strip.mp h')
  · rw [h]; exact .inl (earlier_strip.mp h')
  · rw [h]
    have h' := same_strip.mp h'
    revert h1
    cases cmpList (tailItems a.stage a.build) (tailItems b.stage b.build) <;> intro h1
    · exact .inr ⟨h', h1⟩
    · exact ⟨h', h1⟩
    · exact .inr ⟨sameVersion_symm h', h1⟩

/-! ### The relations exclude each other -/

theorem stage_asymm {x y : Stage} (h : x.Before y) : ¬ y.Before x := by
  rintro (h' | ⟨v, w, rfl, rfl, h'⟩)
  · rcases h with h | ⟨v, w, rfl, rfl, h⟩
    · omega
    · exact absurd h' (by simp [Stage.rank])
  · rcases h with h | ⟨v, w, e1, e2, h⟩
    · exact absurd h (by simp [Stage.rank])
    · cases e1; cases e2; exact lt_asymm h h'

theorem stage_irrefl {x : Stage} : ¬ x.Before x := fun h => stage_asymm h h

theorem release_not_same {a b : Release} (h : a.Before b) : ¬ a.Same b := by
  rintro ⟨h1, h2, h3⟩
  rcases h with h | ⟨_, h | ⟨_, h⟩⟩
  · exact earlier_not_same h h1
  · rw [h2] at h; exact stage_irrefl h
  · omega

theorem release_asymm {a b : Release} (h : a.Before b) : ¬ b.Before a := by
  rintro (h' | ⟨hs, h'⟩)
  · rcases h with h | ⟨hs, _⟩
    · exact earlier_asymm h h'
    · exact earlier_not_same h' (sameVersion_symm hs)
  · rcases h with h | ⟨_, h⟩
    · exact earlier_not_same h (sameVersion_symm hs)
    · rcases h with h | ⟨e, h⟩ <;> rcases h' with h' | ⟨e', h'⟩
      · exact stage_asymm h h'
      · rw [e'] at h; exact stage_irrefl h
      · rw [e] at h'; exact stage_irrefl h'
      · omega

theorem release_same_symm {a b : Release} (h : a.Same b) : b.Same a :=
  ⟨sameVersion_symm h.1, h.2.1.symm, h.2.2.symm⟩

theorem release_test (o : CmpOp) {c : Ordering} {a b : Release} (h : ReleaseAgrees c a b) :
    o.test c = true ↔ ReleaseRel o a b := by
  cases c with
  | lt =>
    have h : a.Before b := h
    have h1 := release_asymm h
    have h2 := release_not_same h
    cases o <;> simp [CmpOp.test, ReleaseRel, h, h1, h2]
  | eq =>
    have h : a.Same b := h
    have h1 : ¬ a.Before b := fun e => release_not_same e h
    have h2 : ¬ b.Before a := fun e => release_not_same e (release_same_symm h)
    cases o <;> simp [CmpOp.test, ReleaseRel, h, h1, h2]
  | gt =>
    have h : b.Before a := h
    have h1 := release_asymm h
    have h2 : ¬ a.Same b := fun e => release_not_same h (release_same_symm e)
    cases o <;> simp [CmpOp.test, ReleaseRel, h, h1, h2]

/-! ### Comparisons -/

theorem compare_ver (o : CmpOp) (s t : JStr) : Cond.compare o (.ver s) (.ver t) = .ok (o.test (cmpVersion s t)) := by
  refine compare_via o (r := cmpVersion s t) .version ?_ ?_ ?_ ?_ ?_ ?_ ?_
  · simp [getDataType]
  · simp [getDataType]
  · rfl
  · rfl
  · rfl
  · exact validate_same rfl
  · rfl

theorem compare_ver_text {o : CmpOp} (ho : o ≠ .eq) (ho' : o ≠ .ne) {a b : Value} {s t : JStr}
    (ha : a = .ver s ∨ a = .str s) (hb : b = .ver t ∨ b = .str t) (hab : a = .ver s ∨ b = .ver t)
    (hs : getDataType (.str s) = .string) (ht : getDataType (.str t) = .string) :
    Cond.compare o a b = .ok (o.test (cmpVersion s t)) := by
  have na : a ≠ .null := by rcases ha with rfl | rfl <;> simp
  have nb : b ≠ .null := by rcases hb with rfl | rfl <;> simp
  have hor : orderType (getDataType a) (getDataType b) = .version := by
    rcases ha with rfl | rfl <;> rcases hb with rfl | rfl
    · rfl
    · rw [ht]; rfl
    · rw [hs]; rfl
    · rcases hab with h | h <;> cases h
  have hval : validate a (getDataType a) b (getDataType b) = .ok () := by
    rcases ha with rfl | rfl <;> rcases hb with rfl | rfl
    · rfl
    · rw [ht]; rfl
    · rw [hs]; rfl
    · rcases hab with h | h <;> cases h
  have hnb : ¬ (getDataType a = .boolean ∨ getDataType b = .boolean) := by
    rcases ha with rfl | rfl <;> rcases hb with rfl | rfl <;>
      (try rw [hs]) <;> (try rw [ht]) <;> simp [getDataType]
  have hp : comparePrim .version a b = .ok (cmpVersion s t) := by
    rcases ha with rfl | rfl <;> rcases hb with rfl | rfl <;> rfl
  rw [compare_ord_sym ho ho' na nb, if_neg hnb, hval, hor, hp]; rfl

theorem small_head {w l : JStr} (h : Small w l) : ∃ c cs, w = c :: cs ∧ isDigit c = false ∧ c ≠ '-' := by
  obtain ⟨hne, h⟩ := h
  cases h with
  | nil => exact absurd rfl hne
  | @cons c s w l h _ =>
    obtain ⟨p, hp, hc, _⟩ := h
    obtain ⟨_, _, ⟨h3, _, h5⟩, ⟨h6, _, h8⟩, _⟩ := alphabet_all p hp
    refine ⟨c, w, rfl, ?_⟩
    rcases hc with rfl | rfl
    · exact ⟨h6, h8⟩
    · exact ⟨h3, h5⟩

theorem dropWhile_digits {p : JStr} (hp : p.all isDigit = true) {c : Char} (hc : isDigit c = false) (r : JStr) :
    (p ++ c :: r).dropWhile isDigit = c :: r := by
  induction p with
  | nil => simp [hc]
  | cons d ds ih =>
    simp only [List.all_cons, Bool.and_eq_true] at hp
    rw [List.cons_append, List.dropWhile_cons, if_pos hp.1]; exact ih hp.2

/-- A text of digits that goes on with something that is no dash and digit is no date. -/
theorem not_dateLike_cont {p : JStr} (hp : IsDigits p) {c : Char} (hc : isDigit c = false) {r : JStr}
    (hr : c ≠ '-' ∨ ∃ e es, r = e :: es ∧ isDigit e = false) : ¬ DateLike (p ++ c :: r) := by
  rintro ⟨y, m, d, t, hy, hm, _, e | e⟩
  · have h1 := dropWhile_digits hp.2 hc r
    have h2 := dropWhile_digits hy.2 (c := '-') (by decide) (m ++ '-' :: (d ++ t))
    rw [← e, h1] at h2
    injection h2 with h3 h4
    rcases hr with hr | ⟨x, es, rfl, hx⟩
    · exact hr h3
    · obtain ⟨c', cs, hcs, hc'⟩ := digits_head hm
      rw [hcs] at h4; injection h4 with h5 _
      rw [h5, hc'] at hx; cases hx
  · obtain ⟨c', cs, hcs, hc'⟩ := digits_head hp
    rw [hcs] at e; injection e with e1 _
    rw [e1] at hc'; cases hc'

theorem release_plain {s : JStr} {a : Release} (h : ReleaseText s a) : getDataType (.str s) = .string := by
  have main : ∀ {s sep w l : JStr} {v : List ℕ}, VersionText s v → Dash sep → Small w l → ∀ r,
      getDataType (.str (s ++ sep ++ w ++ r)) = .string := by
    intro s sep w l v hv hs hw r
    obtain ⟨c, cs, rfl, hc, hd⟩ := small_head hw
    obtain ⟨p, ps, hp, hps, rfl, rfl⟩ := hv
    apply plain_type
    cases ps with
    | nil =>
      rcases hs with rfl | rfl
      · have := not_dateLike_cont hp hc (r := cs ++ r) (.inl hd)
        simpa [dots] using this
      · have := not_dateLike_cont hp (c := '-') (by decide) (r := c :: (cs ++ r)) (.inr ⟨c, _, rfl, hc⟩)
        simpa [dots] using this
    | cons q qs =>
      have := not_dateLike_cont hp (c := '.') (by decide) (r := q ++ dots qs ++ sep ++ (c :: cs) ++ r) (.inl (by decide))
      simpa [dots] using this
  cases h with
  | plain h => exact versionText_plain h
  | staged hv hs hw _ => have := main hv hs hw []; rwa [List.append_nil] at this
  | numbered hv hs hw _ _ _ => exact main hv hs hw _
  | dashed hv hs hw _ _ _ => rw [List.append_assoc]; exact main hv hs hw _

end BoolParser
