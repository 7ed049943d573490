import Verif.Lemmas.Kinds
/-!
# Comparison of dotted numeric versions
-/

namespace BoolParser
open Spec VItem

theorem lowerChar_digit {c : Char} (h : isDigit c = true) : lowerChar c = c := by
  unfold isDigit at h; simp at h
  unfold lowerChar; rw [if_neg (by omega)]

theorem lower_digits {p : JStr} (h : p.all isDigit = true) : lower p = p := by
  unfold lower
  induction p with
  | nil => rfl
  | cons c cs ih =>
    simp only [List.all_cons, Bool.and_eq_true] at h
    rw [List.map_cons, lowerChar_digit h.1, ih h.2]

theorem lower_append (a b : JStr) : lower (a ++ b) = lower a ++ lower b := List.map_append

theorem lower_dots {ps : List JStr} (h : ∀ q ∈ ps, IsDigits q) : lower (dots ps) = dots ps := by
  induction ps with
  | nil => rfl
  | cons p ps ih =>
    rw [dots]
    show lowerChar '.' :: lower (p ++ dots ps) = _
    rw [lower_append, lower_digits (h p (by simp)).2, ih (fun q hq => h q (by simp [hq]))]
    rfl

theorem parseGo_digits {p : JStr} (hp : p.all isDigit = true) (r : JStr) (segs : List (List VItem)) (cur : List VItem)
    (buf : JStr) (dig : Bool) (hb : buf = [] ∨ dig = true) (hne : p ≠ []) :
    parseGo (p ++ r) segs cur buf dig = parseGo r segs cur (p.reverse ++ buf) true := by
  induction p generalizing buf dig with
  | nil => exact absurd rfl hne
  | cons c cs ih =>
    simp only [List.all_cons, Bool.and_eq_true] at hp
    have h1 : c ≠ '.' := digit_ne hp.1 (by decide)
    have h2 : c ≠ '-' := digit_ne hp.1 (by decide)
    have h3 : ¬ (dig = false ∧ buf ≠ []) := by
      rintro ⟨e1, e2⟩; rcases hb with h | h
      · exact e2 h
      · rw [h] at e1; cases e1
    rw [List.cons_append, parseGo, if_neg h1, if_neg h2, if_pos hp.1, if_neg h3]
    by_cases hcs : cs = []
    · subst hcs; rfl
    · rw [ih hp.2 _ _ (.inr rfl) hcs]; simp

theorem parseGo_dots {p : JStr} {ps : List JStr} (hp : IsDigits p) (hps : ∀ q ∈ ps, IsDigits q)
    (segs : List (List VItem)) (cur : List VItem) (dig : Bool) :
    parseGo (p ++ dots ps) segs cur [] dig =
      segs ++ [cur.reverse ++ (VItem.int (natOfDigits 0 p) :: ps.map (fun q => VItem.int (natOfDigits 0 q)))] := by
  induction ps generalizing p cur dig with
  | nil =>
    rw [parseGo_digits hp.2 _ _ _ _ _ (.inl rfl) hp.1, dots, parseGo]
    simp [mkItem, hp.1]
  | cons q qs ih =>
    rw [parseGo_digits hp.2 _ _ _ _ _ (.inl rfl) hp.1, dots, parseGo]
    rw [if_pos rfl]
    simp only
    rw [ih (hps q (by simp)) (fun q hq => hps q (by simp [hq]))]
    simp [mkItem, hp.1]

theorem normRev_ints (l : List ℕ) : normRev (l.map .int) = (l.dropWhile (· == 0)).map .int := by
  induction l with
  | nil => rfl
  | cons n ns ih =>
    rw [List.map_cons, normRev]
    swap
    · intro ys h; cases h
    by_cases h : n = 0
    · subst h; rw [List.dropWhile_cons]; simp [isNull, ih]
    · rw [List.dropWhile_cons]; simp [isNull, h]

/-- Without trailing zeros. -/
def strip (v : List ℕ) : List ℕ := (v.reverse.dropWhile (· == 0)).reverse

theorem normalize_ints (v : List ℕ) : normalize (v.map .int) = (strip v).map .int := by
  unfold normalize strip
  rw [← List.map_reverse, normRev_ints, List.map_reverse]

theorem dropWhile_zero (l : List ℕ) : ∃ k, l = List.replicate k 0 ++ l.dropWhile (· == 0) := by
  induction l with
  | nil => exact ⟨0, rfl⟩
  | cons n ns ih =>
    rw [List.dropWhile_cons]
    by_cases h : n = 0
    · subst h
      obtain ⟨k, hk⟩ := ih
      refine ⟨k + 1, ?_⟩
      simp only [beq_self_eq_true, if_true, List.replicate_succ, List.cons_append]
      rw [← hk]
    · exact ⟨0, by simp [h]⟩

theorem component_strip (v : List ℕ) (i : ℕ) : component (strip v) i = component v i := by
  obtain ⟨k, hk⟩ := dropWhile_zero v.reverse
  have : v = strip v ++ List.replicate k 0 := by
    have := congrArg List.reverse hk
    rw [List.reverse_reverse] at this
    rw [List.reverse_append, List.reverse_replicate] at this
    exact this
  conv_rhs => rw [this]
  unfold component
  rw [List.getD_eq_getElem?_getD, List.getD_eq_getElem?_getD, List.getElem?_append]
  split
  · rfl
  · rename_i h
    rw [List.getElem?_eq_none (by omega), List.getElem?_replicate]
    split <;> rfl

theorem component_cons_succ (x : ℕ) (v : List ℕ) (i : ℕ) : component (x :: v) (i + 1) = component v i := rfl
theorem component_cons_zero (x : ℕ) (v : List ℕ) : component (x :: v) 0 = x := rfl
theorem component_nil (i : ℕ) : component [] i = 0 := by unfold component; simp

/-- Outcome of a three-way comparison, read on components. -/
def Agrees (o : Ordering) (v w : List ℕ) : Prop :=
  match o with
  | .lt => Earlier v w
  | .eq => SameVersion v w
  | .gt => Earlier w v

theorem agrees_cons {v w v' w' : List ℕ} (hv : ∀ i, component v (i + 1) = component v' i)
    (hw : ∀ i, component w (i + 1) = component w' i) {o : Ordering} (h : Agrees o v' w') :
    Agrees ((compare (component v 0) (component w 0)).then o) v w := by
  rcases Nat.lt_trichotomy (component v 0) (component w 0) with h0 | h0 | h0
  · rw [Nat.compare_eq_lt.mpr h0]; exact ⟨0, by intro j hj; omega, h0⟩
  · rw [Nat.compare_eq_eq.mpr h0]
    show Agrees o v w
    cases o with
    | lt =>
      obtain ⟨i, h1, h2⟩ := h
      refine ⟨i + 1, ?_, by rw [hv, hw]; exact h2⟩
      intro j hj
      cases j with
      | zero => exact h0
      | succ j => rw [hv, hw]; exact h1 j (by omega)
    | eq =>
      intro i
      cases i with
      | zero => exact h0
      | succ j => rw [hv, hw]; exact h j
    | gt =>
      obtain ⟨i, h1, h2⟩ := h
      refine ⟨i + 1, ?_, by rw [hv, hw]; exact h2⟩
      intro j hj
      cases j with
      | zero => exact h0.symm
      | succ j => rw [hv, hw]; exact h1 j (by omega)
  · rw [Nat.compare_eq_gt.mpr h0]; exact ⟨0, by intro j hj; omega, h0⟩

theorem cmpNull_int (n : ℕ) : cmpNull (.int n) = compare n 0 := by
  unfold cmpNull
  cases n with
  | zero => rfl
  | succ n => rw [if_neg (by omega)]; exact (Nat.compare_eq_gt.mpr (by omega)).symm

theorem cmpNulls_ints (w : List ℕ) : Agrees (cmpNulls (w.map .int)) [] w := by
  induction w with
  | nil => intro i; rfl
  | cons y ys ih =>
    rw [List.map_cons, cmpNulls, cmpNull_int, ← cmpN]
    exact agrees_cons (v := []) (w := y :: ys) (v' := []) (fun i => by rw [component_nil, component_nil])
      (fun i => rfl) ih

theorem cmpList_ints (v w : List ℕ) : Agrees (cmpList (v.map .int) (w.map .int)) v w := by
  induction v generalizing w with
  | nil =>
    have : cmpList (([] : List ℕ).map .int) (w.map .int) = cmpNulls (w.map .int) := by
      rw [List.map_nil]; unfold cmpList; rfl
    rw [this]; exact cmpNulls_ints w
  | cons x xs ih =>
    cases w with
    | nil =>
      rw [List.map_cons, List.map_nil]
      have : cmpList (VItem.int x :: xs.map .int) [] = (cmpNull (.int x)).then (cmpList (xs.map .int) []) := by
        conv_lhs => unfold cmpList
      rw [this, cmpNull_int]
      exact agrees_cons (v := x :: xs) (w := []) (w' := []) (fun i => rfl)
        (fun i => by rw [component_nil, component_nil]) (by simpa using ih [])
    | cons y ys =>
      rw [List.map_cons, List.map_cons]
      have : cmpList (VItem.int x :: xs.map .int) (VItem.int y :: ys.map .int) =
          (compare x y).then (cmpList (xs.map .int) (ys.map .int)) := by
        conv_lhs => unfold cmpList cmpItem
      rw [this]
      exact agrees_cons (v := x :: xs) (w := y :: ys) (fun i => rfl) (fun i => rfl) (ih ys)

theorem agrees_congr {o : Ordering} {v w v' w' : List ℕ} (hv : ∀ i, component v i = component v' i)
    (hw : ∀ i, component w i = component w' i) (h : Agrees o v w) : Agrees o v' w' := by
  cases o <;> simp only [Agrees, Earlier, SameVersion, hv, hw] at * <;> exact h

theorem asciiDigits_dots {ps : List JStr} (h : ∀ q ∈ ps, IsDigits q) : asciiDigits (dots ps) = dots ps := by
  induction ps with
  | nil => rfl
  | cons p ps ih =>
    show asciiDigits ('.' :: (p ++ dots ps)) = '.' :: (p ++ dots ps)
    rw [asciiDigits_cons (by decide), asciiDigits_append, asciiDigits_digits (h p (by simp)).2,
      ih (fun q hq => h q (by simp [hq]))]

theorem parseVersion_text {s : JStr} {v : List ℕ} (h : VersionText s v) :
    parseVersion s = (strip v).map .int := by
  obtain ⟨p, ps, hp, hps, rfl, rfl⟩ := h
  unfold parseVersion
  rw [lower_append, lower_digits hp.2, lower_dots hps, asciiDigits_append, asciiDigits_digits hp.2,
    asciiDigits_dots hps, parseGo_dots hp hps]
  rw [← normalize_ints]
  simp only [List.reverse_nil, List.nil_append, nest, List.map_cons, digitsValue_eq, List.map_map]
  congr 3
  funext q
  exact congrArg _ (digitsValue_eq q).symm

theorem cmpVersion_text {s t : JStr} {v w : List ℕ} (hs : VersionText s v) (ht : VersionText t w) :
    Agrees (cmpVersion s t) v w := by
  unfold cmpVersion
  rw [parseVersion_text hs, parseVersion_text ht]
  exact agrees_congr (component_strip v) (component_strip w) (cmpList_ints _ _)

theorem earlier_asymm {v w : List ℕ} (h : Earlier v w) : ¬ Earlier w v := by
  obtain ⟨i, h1, h2⟩ := h
  rintro ⟨j, h3, h4⟩
  rcases Nat.lt_trichotomy i j with h | h | h
  · have := h3 i h; omega
  · subst h; omega
  · have := h1 j h; omega

theorem earlier_not_same {v w : List ℕ} (h : Earlier v w) : ¬ SameVersion v w := by
  obtain ⟨i, _, h2⟩ := h
  intro hs; have := hs i; omega

theorem sameVersion_symm {v w : List ℕ} (h : SameVersion v w) : SameVersion w v := fun i => (h i).symm

theorem agrees_test (o : CmpOp) {c : Ordering} {v w : List ℕ} (h : Agrees c v w) :
    o.test c = true ↔ VersionRel o v w := by
  cases c with
  | lt =>
    have h : Earlier v w := h
    have h1 := earlier_asymm h
    have h2 := earlier_not_same h
    cases o <;> simp [CmpOp.test, VersionRel, h, h1, h2]
  | eq =>
    have h : SameVersion v w := h
    have h1 : ¬ Earlier v w := fun e => earlier_not_same e h
    have h2 : ¬ Earlier w v := fun e => earlier_not_same e (sameVersion_symm h)
    cases o <;> simp [CmpOp.test, VersionRel, h, h1, h2]
  | gt =>
    have h : Earlier w v := h
    have h1 := earlier_asymm h
    have h2 : ¬ SameVersion v w := fun e => earlier_not_same h (sameVersion_symm e)
    cases o <;> simp [CmpOp.test, VersionRel, h, h1, h2]

theorem compare_version (o : CmpOp) {s t : JStr} {v w : List ℕ} (hs : VersionText s v) (ht : VersionText t w) :
    ∃ b, Cond.compare o (.ver s) (.ver t) = .ok b ∧ (b = true ↔ VersionRel o v w) := by
  refine ⟨_, compare_via o (r := cmpVersion s t) .version ?_ ?_ ?_ ?_ ?_ ?_ ?_, agrees_test o (cmpVersion_text hs ht)⟩
  · simp [getDataType]
  · simp [getDataType]
  · rfl
  · rfl
  · rfl
  · exact validate_same rfl
  · rfl

theorem not_dateLike_dots {s : JStr} (h : '-' ∉ s) : ¬ DateLike s := by
  rintro ⟨y, m, d, r, _, _, _, e | e⟩ <;> exact h (by rw [e]; simp)

theorem dots_no_dash {ps : List JStr} (h : ∀ q ∈ ps, IsDigits q) : '-' ∉ dots ps := by
  induction ps with
  | nil => simp [dots]
  | cons p ps ih =>
    rw [dots]
    intro hm
    rcases List.mem_cons.mp hm with e | e
    · cases e
    · rcases List.mem_append.mp e with e | e
      · have := List.all_eq_true.mp (h p (by simp)).2 _ e; cases this
      · exact ih (fun q hq => h q (by simp [hq])) e

theorem versionText_plain {s : JStr} {v : List ℕ} (h : VersionText s v) : getDataType (.str s) = .string := by
  obtain ⟨p, ps, hp, hps, rfl, rfl⟩ := h
  apply plain_type
  apply not_dateLike_dots
  intro hm
  rcases List.mem_append.mp hm with e | e
  · have := List.all_eq_true.mp hp.2 _ e; cases this
  · exact dots_no_dash hps e

/-- A version object and a version text, in order comparisons. -/
theorem compare_version_text {o : CmpOp} (ho : o ≠ .eq) (ho' : o ≠ .ne) {a b : Value} {s t : JStr} {v w : List ℕ}
    (ha : a = .ver s ∨ a = .str s) (hb : b = .ver t ∨ b = .str t) (hab : a = .ver s ∨ b = .ver t)
    (hs : VersionText s v) (ht : VersionText t w) :
    ∃ r, Cond.compare o a b = .ok r ∧ (r = true ↔ VersionRel o v w) := by
  refine ⟨o.test (cmpVersion s t), ?_, agrees_test o (cmpVersion_text hs ht)⟩
  have ta : getDataType a = .version ∨ getDataType a = .string := by
    rcases ha with rfl | rfl
    · exact .inl rfl
    · exact .inr (versionText_plain hs)
  have na : a ≠ .null := by rcases ha with rfl | rfl <;> simp
  have nb : b ≠ .null := by rcases hb with rfl | rfl <;> simp
  have hor : orderType (getDataType a) (getDataType b) = .version := by
    rcases ha with rfl | rfl <;> rcases hb with rfl | rfl
    · rfl
    · rw [versionText_plain ht]; rfl
    · rw [versionText_plain hs]; rfl
    · rcases hab with h | h <;> cases h
  have hval : validate a (getDataType a) b (getDataType b) = .ok () := by
    rcases ha with rfl | rfl <;> rcases hb with rfl | rfl
    · rfl
    · rw [versionText_plain ht]; rfl
    · rw [versionText_plain hs]; rfl
    · rcases hab with h | h <;> cases h
  have hnb : ¬ (getDataType a = .boolean ∨ getDataType b = .boolean) := by
    rcases ha with rfl | rfl <;> rcases hb with rfl | rfl <;>
      (try rw [versionText_plain hs]) <;> (try rw [versionText_plain ht]) <;> simp [getDataType]
  have hp : comparePrim .version a b = .ok (cmpVersion s t) := by
    rcases ha with rfl | rfl <;> rcases hb with rfl | rfl <;> rfl
  rw [compare_ord_sym ho ho' na nb, if_neg hnb, hval, hor, hp]; rfl

end BoolParser
