import Verif.Lemmas.ReleaseCmp
import Verif.Props.Comparison
/-!
# C80 Versions with a stage

`Spec/Releases.lean` tells what a text such as `1.0-beta2` or `2.1-SNAPSHOT` means and how these versions are ordered.
-/

namespace BoolParser
open Spec

/-- **C80.** A version object compares with another version, or with a text of a version, by the numbers, then by the
stage (alpha, beta, milestone, rc, snapshot, the release itself, sp, other words alphabetically), then by the number
of the build; capital and small letters are the same. -/
theorem C80_order {o : CmpOp} (ho : IsOrder o) {l r : Arith} {s : JStr} (h : Writes s (.cmp o l r)) {env : Env}
    {d : Data} {df : Option JStr} (hdf : DefaultOk df) {a b : Value} (hl : l.value env d = .ok a)
    (hr : r.value env d = .ok b) {t u : JStr} (ha : a = .ver t ∨ a = .str t) (hb : b = .ver u ∨ b = .str u)
    (hab : a = .ver t ∨ b = .ver u) {v w : Release} (ht : ReleaseText t v) (hu : ReleaseText u w) :
    ∃ x, evaluate env s d df = .success x ∧ (x = true ↔ ReleaseRel o v w) := by
  refine ⟨_, ?_, release_test o (cmpVersion_release ht hu)⟩
  rw [cmp_text h hdf hl hr, compare_ver_text ho.1 ho.2 ha hb hab (release_plain ht) (release_plain hu)]; rfl

/-- **C80**, two version objects, all six operators. -/
theorem C80_objects (o : CmpOp) {l r : Arith} {s : JStr} (h : Writes s (.cmp o l r)) {env : Env}
    {d : Data} {df : Option JStr} (hdf : DefaultOk df) {t u : JStr} (hl : l.value env d = .ok (.ver t))
    (hr : r.value env d = .ok (.ver u)) {v w : Release} (ht : ReleaseText t v) (hu : ReleaseText u w) :
    ∃ x, evaluate env s d df = .success x ∧ (x = true ↔ ReleaseRel o v w) := by
  refine ⟨_, ?_, release_test o (cmpVersion_release ht hu)⟩
  rw [cmp_text h hdf hl hr, compare_ver]; rfl

/-- `2.1-RC2` from a text field is before the literal `2.1.0`. -/
example (env : Env) : ∃ x, evaluate env j!"v < 2.1.0" [(['v'], .str j!"2.1-RC2")] none = .success x ∧
    (x = true ↔ ReleaseRel .lt ⟨[2, 1], .rc, 2⟩ ⟨[2, 1, 0], .release, 0⟩) :=
  C80_order (o := .lt) (by decide) (l := .field ['v']) (r := .lit (.ver '2' ['1'] ['0'] [])) (writes_of (by krfl))
    noDefault (a := .str j!"2.1-RC2") (b := .ver j!"2.1.0") (by rfl) (by rfl) (.inr rfl) (.inl rfl) (.inr rfl)
    (.numbered (s := j!"2.1") (sep := ['-']) (w := j!"RC") (l := j!"rc") (p := ['2'])
      ⟨['2'], [['1']], by decide, by decide, by rfl, by rfl⟩ (.inr rfl)
      ⟨by simp, .cons ⟨('R', 'r'), by decide, .inl rfl, rfl⟩ (.cons ⟨('C', 'c'), by decide, .inl rfl, rfl⟩ .nil)⟩
      (.name true (by simp [stageNames])) (by simp) (by decide))
    (.plain ⟨['2'], [['1'], ['0']], by decide, by decide, by rfl, by rfl⟩)

example : ReleaseRel .lt ⟨[2, 1], .rc, 2⟩ ⟨[2, 1, 0], .release, 0⟩ := by
  refine .inr ⟨fun i => ?_, .inl (.inl (by decide))⟩
  match i with
  | 0 | 1 | 2 => rfl
  | _ + 3 => rfl

/-! ### The order -/

theorem same_trans {u v w : List ℕ} (h : SameVersion u v) (h' : SameVersion v w) : SameVersion u w :=
  fun i => (h i).trans (h' i)

theorem earlier_same {u v w : List ℕ} (h : Earlier u v) (h' : SameVersion v w) : Earlier u w := by
  obtain ⟨i, h1, h2⟩ := h
  exact ⟨i, fun j hj => (h1 j hj).trans (h' j), by rw [← h' i]; exact h2⟩

theorem same_earlier {u v w : List ℕ} (h : SameVersion u v) (h' : Earlier v w) : Earlier u w := by
  obtain ⟨i, h1, h2⟩ := h'
  exact ⟨i, fun j hj => (h j).trans (h1 j hj), by rw [h i]; exact h2⟩

theorem earlier_trans {u v w : List ℕ} (h : Earlier u v) (h' : Earlier v w) : Earlier u w := by
  obtain ⟨i, h1, h2⟩ := h
  obtain ⟨j, h3, h4⟩ := h'
  rcases Nat.lt_trichotomy i j with hij | hij | hij
  · exact ⟨i, fun k hk => (h1 k hk).trans (h3 k (by omega)), by rw [← h3 i hij]; exact h2⟩
  · subst hij; exact ⟨i, fun k hk => (h1 k hk).trans (h3 k hk), by omega⟩
  · exact ⟨j, fun k hk => (h1 k (by omega)).trans (h3 k hk), by rw [h1 j hij]; exact h4⟩

theorem stage_trans {x y z : Stage} (h : x.Before y) (h' : y.Before z) : x.Before z := by
  rcases h with h | ⟨v, w, rfl, rfl, h⟩ <;> rcases h' with h' | ⟨v', w', e, e', h'⟩
  · exact .inl (by omega)
  · subst e e'; exact .inl h
  · exact .inl h'
  · cases e; subst e'; exact .inr ⟨v, w', rfl, rfl, lt_trans h h'⟩

theorem before_trans {a b c : Release} (h : a.Before b) (h' : b.Before c) : a.Before c := by
  rcases h with h | ⟨hs, h⟩ <;> rcases h' with h' | ⟨hs', h'⟩
  · exact .inl (earlier_trans h h')
  · exact .inl (earlier_same h hs')
  · exact .inl (same_earlier hs h')
  · refine .inr ⟨same_trans hs hs', ?_⟩
    rcases h with h | ⟨e, h⟩ <;> rcases h' with h' | ⟨e', h'⟩
    · exact .inl (stage_trans h h')
    · exact .inl (e' ▸ h)
    · exact .inl (e ▸ h')
    · exact .inr ⟨e.trans e', by omega⟩

/-- **C80**, among such versions `<` is transitive. -/
theorem C80_transitive {x y z : Arith} {s1 s2 s3 : JStr} (h1 : Writes s1 (.cmp .lt x y)) (h2 : Writes s2 (.cmp .lt y z))
    (h3 : Writes s3 (.cmp .lt x z)) {env : Env} {d : Data} {df : Option JStr} (hdf : DefaultOk df) {t u v : JStr}
    (hx : x.value env d = .ok (.ver t)) (hy : y.value env d = .ok (.ver u)) (hz : z.value env d = .ok (.ver v))
    {a b c : Release} (ht : ReleaseText t a) (hu : ReleaseText u b) (hv : ReleaseText v c)
    (e1 : evaluate env s1 d df = .success true) (e2 : evaluate env s2 d df = .success true) :
    evaluate env s3 d df = .success true := by
  obtain ⟨p, hp, ip⟩ := C80_objects .lt h1 hdf hx hy ht hu
  obtain ⟨q, hq, iq⟩ := C80_objects .lt h2 hdf hy hz hu hv
  obtain ⟨r, hr, ir⟩ := C80_objects .lt h3 hdf hx hz ht hv
  rw [hp] at e1; injection e1 with e1
  rw [hq] at e2; injection e2 with e2
  rw [hr, ir.mpr (before_trans (ip.mp e1) (iq.mp e2))]

/-- **C80**, exactly one of `<`, `=`, `>` is true. -/
theorem C80_trichotomy {x y : Arith} {s1 s2 s3 : JStr} (h1 : Writes s1 (.cmp .lt x y)) (h2 : Writes s2 (.cmp .eq x y))
    (h3 : Writes s3 (.cmp .gt x y)) {env : Env} {d : Data} {df : Option JStr} (hdf : DefaultOk df) {t u : JStr}
    (hx : x.value env d = .ok (.ver t)) (hy : y.value env d = .ok (.ver u)) :
    ∃ p q r : Bool, evaluate env s1 d df = .success p ∧ evaluate env s2 d df = .success q ∧
      evaluate env s3 d df = .success r ∧ [p, q, r].count true = 1 := by
  refine ⟨_, _, _, (by rw [cmp_text h1 hdf hx hy, compare_ver]; rfl), (by rw [cmp_text h2 hdf hx hy, compare_ver]; rfl),
    (by rw [cmp_text h3 hdf hx hy, compare_ver]; rfl), ?_⟩
  cases cmpVersion t u <;> rfl

example (env : Env) : ∃ p q r : Bool,
    evaluate env j!"v < w" [(['v'], .ver j!"1.a"), (['w'], .ver j!"1-rc2")] none = .success p ∧
    evaluate env j!"v = w" [(['v'], .ver j!"1.a"), (['w'], .ver j!"1-rc2")] none = .success q ∧
    evaluate env j!"v > w" [(['v'], .ver j!"1.a"), (['w'], .ver j!"1-rc2")] none = .success r ∧
    [p, q, r].count true = 1 :=
  C80_trichotomy (x := .field ['v']) (y := .field ['w']) (writes_of (by krfl)) (writes_of (by krfl)) (writes_of (by krfl))
    noDefault (by rfl) (by rfl)

/-- Among arbitrary version texts `<` is not transitive: a word after a dot is below a word after a dash. -/
theorem C80_dotted_word (env : Env) :
    let d : Data := [(['u'], .ver ['1']), (['v'], .ver j!"1.a"), (['w'], .ver j!"1-rc2")]
    evaluate env j!"u < v" d none = .success true ∧ evaluate env j!"v < w" d none = .success true ∧
      evaluate env j!"u < w" d none = .success false := ⟨by krfl, by krfl, by krfl⟩

/-- `1.0-alpha`, `1.0-beta2`, `1.0` satisfy the hypotheses of `C80_transitive`. -/
example (env : Env) : evaluate env j!"u < w" [(['u'], .ver j!"1.0-alpha"), (['v'], .ver j!"1.0b2"), (['w'], .ver j!"1.0")] none =
    .success true :=
  C80_transitive (x := .field ['u']) (y := .field ['v']) (z := .field ['w']) (s1 := j!"u < v") (s2 := j!"v < w")
    (writes_of (by krfl)) (writes_of (by krfl)) (writes_of (by krfl)) noDefault (by rfl) (by rfl) (by rfl)
    (.staged (s := j!"1.0") (sep := ['-']) (w := j!"alpha") (l := j!"alpha")
      ⟨['1'], [['0']], by decide, by decide, by rfl, by rfl⟩ (.inr rfl)
      ⟨by simp, .cons ⟨('A', 'a'), by decide, .inr rfl, rfl⟩ (.cons ⟨('L', 'l'), by decide, .inr rfl, rfl⟩
        (.cons ⟨('P', 'p'), by decide, .inr rfl, rfl⟩ (.cons ⟨('H', 'h'), by decide, .inr rfl, rfl⟩
          (.cons ⟨('A', 'a'), by decide, .inr rfl, rfl⟩ .nil))))⟩
      (.name (x := .alpha) false (by simp [stageNames])))
    (.numbered (s := j!"1.0") (sep := []) (w := ['b']) (l := ['b']) (p := ['2'])
      ⟨['1'], [['0']], by decide, by decide, by rfl, by rfl⟩ (.inl rfl)
      ⟨by simp, .cons ⟨('B', 'b'), by decide, .inr rfl, rfl⟩ .nil⟩ (.short (x := .beta) (by simp [shortNames])) (by simp) (by decide))
    (.plain ⟨['1'], [['0']], by decide, by decide, by rfl, by rfl⟩) (by krfl) (by krfl)

end BoolParser
