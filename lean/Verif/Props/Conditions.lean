import Verif.Lemmas.Lists
import Verif.Lemmas.Paths
import Verif.Props.Comparison
/-!
# Ranges, membership, lists, missing data and null checks

C09, C10, C11, C12, C13, C14, C15.
-/

namespace BoolParser
open Spec

/-! ## C09 Ranges -/

theorem numLit {l : Lit} (hv : l.Valid) (hn : l.isNumber = true) : Num l.value (Lit.number l) := by
  cases l with
  | int ds =>
    simp only [Lit.Valid] at hv
    simp only [Lit.value, Lit.number]
    split
    · rename_i h
      have := Num.int (n := (digitsValue ds : Int)) ⟨by omega, by omega⟩
      simpa using this
    · have := Num.long (n := (digitsValue ds : Int)) ⟨by omega, by omega⟩
      simpa using this
  | dec a b =>
    simp only [Lit.value, Lit.number]
    have := Num.dec ⟨digitsValue (a ++ b), b.length⟩
    rw [show decVal ⟨digitsValue (a ++ b), b.length⟩ = (digitsValue (a ++ b) : ℚ) / 10 ^ b.length by
      simp [decVal, div_eq_mul_inv]] at this
    exact this
  | _ => cases hn

/-- How the outcomes of `f >= lo` and `f <= hi` combine: both are looked at, the lower bound first. -/
def bothHold : Outcome Bool → Outcome Bool → Outcome Bool
  | .success a, .success b => .success (a && b)
  | .success _, o => o
  | o, _ => o

/-- **C09.** A range test combines the outcomes of `f >= lo` and `f <= hi`, for any data. -/
theorem C09_range {f : JStr} {lo hi : Lit} {s s₁ s₂ : JStr} (h : Writes s (.range f lo hi))
    (h₁ : Writes s₁ (.cmp .ge (.field f) (.lit lo))) (h₂ : Writes s₂ (.cmp .le (.field f) (.lit hi)))
    (env : Env) (d : Data) {df : Option JStr} (hdf : DefaultOk df) :
    evaluate env s d df = bothHold (evaluate env s₁ d df) (evaluate env s₂ d df) := by
  rw [h.eval env d hdf, h₁.eval env d hdf, h₂.eval env d hdf]
  simp only [Cond.meaning, Arith.value, Cond.rightValue]
  cases Arith.fieldValue f d with
  | error e => rfl
  | ok v =>
    simp only [ok_bind]
    cases Cond.compare .ge v lo.value with
    | error e => rfl
    | ok a => cases Cond.compare .le v hi.value <;> rfl

/-- **C09**, against the text `f >= lo AND f <= hi`: the same outcome, unless the lower bound does not hold and
the comparison with the upper one fails. -/
theorem C09_conjunction {f : JStr} {lo hi : Lit} {s s₁ s₂ sc : JStr} (h : Writes s (.range f lo hi))
    (h₁ : Writes s₁ (.cmp .ge (.field f) (.lit lo))) (h₂ : Writes s₂ (.cmp .le (.field f) (.lit hi)))
    (hc : Writes sc (.conn true (.cmp .ge (.field f) (.lit lo)) (.cmp .le (.field f) (.lit hi))))
    (env : Env) (d : Data) {df : Option JStr} (hdf : DefaultOk df)
    (hok : evaluate env s₁ d df = .success false → ∃ b, evaluate env s₂ d df = .success b) :
    evaluate env s d df = evaluate env sc d df := by
  rw [C09_range h h₁ h₂ env d hdf]
  rw [h₁.eval env d hdf, h₂.eval env d hdf] at *
  rw [hc.eval env d hdf, show Cond.meaning env d df (.conn true (.cmp .ge (.field f) (.lit lo))
    (.cmp .le (.field f) (.lit hi))) = _ from Cond.meaning.eq_10 ..]
  cases h1 : (Cond.cmp .ge (.field f) (.lit lo)).meaning env d df with
  | error e => rfl
  | ok a =>
    rw [h1] at hok
    rw [ok_bind]
    cases a with
    | true =>
      simp only [if_true]
      cases (Cond.cmp .le (.field f) (.lit hi)).meaning env d df <;> rfl
    | false =>
      obtain ⟨b, hb⟩ := hok rfl
      rw [hb]; rfl

/-- **C09**, numbers: inclusive at both ends. -/
theorem C09_numbers {f : JStr} {lo hi : Lit} {s : JStr} (h : Writes s (.range f lo hi)) {env : Env} {d : Data}
    {df : Option JStr} (hdf : DefaultOk df) {v : Value} {x : ℚ} (hv : (Arith.field f).value env d = .ok v)
    (hx : Num v x) :
    evaluate env s d df = .success (decide (Lit.number lo ≤ x ∧ x ≤ Lit.number hi)) := by
  obtain ⟨_, vlo, vhi, nlo, nhi⟩ := h.valid
  rw [Arith.value] at hv
  rw [h.eval env d hdf, Cond.meaning, hv, ok_bind, compare_num .ge hx (numLit vlo nlo), ok_bind,
    compare_num .le hx (numLit vhi nhi), ok_bind]
  show Outcome.success _ = _
  simp [Rel]

/-- **C09**, missing field. -/
theorem C09_missing {f : JStr} {lo hi : Lit} {s : JStr} (h : Writes s (.range f lo hi)) {ks : List JStr}
    (hn : Names f ks) (env : Env) {d : Data} {df : Option JStr} (hdf : DefaultOk df) (hm : Missing d ks) :
    evaluate env s d df = .failure .dataNotFound := by
  rw [h.eval env d hdf, Cond.meaning, fieldValue_missing hn hm]; rfl

/-- The exception in `C09_conjunction` occurs: the text `5.5` is below 6.0, and comparing it with the whole
number 10 fails. -/
theorem C09_differs (env : Env) :
    evaluate env j!"v 6.0 TO 10" [(['v'], .str j!"5.5")] none = .failure .invalidDataType ∧
    evaluate env j!"v >= 6.0 AND v <= 10" [(['v'], .str j!"5.5")] none = .success false := ⟨by krfl, by krfl⟩

example (env : Env) (n : Int) (h : InInt32 n) :
    evaluate env j!"a 5 TO 10.5" [(['a'], .int n)] none = .success (decide ((5 : ℚ) ≤ n ∧ (n : ℚ) ≤ 21/2)) := by
  rw [C09_numbers (f := ['a']) (lo := .int ['5']) (hi := .dec j!"10" ['5']) (writes_of (by krfl)) noDefault
    (v := .int n) (by rfl) (.int h)]
  rw [show Lit.number (.int ['5']) = 5 by simp [Lit.number, digitsValue],
    show Lit.number (.dec j!"10" ['5']) = 21/2 by simp [Lit.number, digitsValue]; norm_num]

example (env : Env) (d : Data) :
    evaluate env j!"a 5 TO 10" d none = bothHold (evaluate env j!"a >= 5" d none) (evaluate env j!"a <= 10" d none) :=
  C09_range (f := ['a']) (lo := .int ['5']) (hi := .int j!"10") (writes_of (by krfl)) (writes_of (by krfl))
    (writes_of (by krfl)) env d noDefault

example (env : Env) : evaluate env j!"a 5 TO 10" [(['a'], .null)] none = .failure .dataNotFound :=
  C09_missing (f := ['a']) (lo := .int ['5']) (hi := .int j!"10") (writes_of (by krfl))
    (ks := [['a']]) ⟨⟨by simp, by decide, by decide⟩, 0, by rfl⟩ env noDefault
    ((walkKeys_none (by simp) _).mp (by krfl))

/-! ## C10 IN -/

/-- `t` writes `f = item`, the item possibly in parentheses. -/
def WritesEqual (t f : JStr) (item : Arith) : Prop :=
  Writes t (.cmp .eq (.field f) item) ∨ Writes t (.cmp .eq (.field f) (.group item))

theorem WritesEqual.eval {t f : JStr} {i : Arith} (h : WritesEqual t f i) (env : Env) (d : Data) {df : Option JStr}
    (hdf : DefaultOk df) {b : Bool} (hs : evaluate env t d df = .success b) :
    ∃ v w, Arith.fieldValue f d = .ok v ∧ i.value env d = .ok w ∧ Cond.compare .eq v w = .ok b := by
  have key : ∀ j : Arith, j.value env d = i.value env d → Writes t (.cmp .eq (.field f) j) →
      ∃ v w, Arith.fieldValue f d = .ok v ∧ i.value env d = .ok w ∧ Cond.compare .eq v w = .ok b := by
    intro j hj hw
    rw [hw.eval env d hdf, Cond.meaning, Arith.value] at hs
    cases hf : Arith.fieldValue f d with
    | error e => rw [hf] at hs; cases hs
    | ok v =>
      rw [hf, ok_bind] at hs
      cases hr : j.value env d with
      | error e =>
        obtain ⟨e', he⟩ := rightValue_error hr
        rw [he] at hs; cases hs
      | ok w =>
        rw [rightValue_ok hr, ok_bind] at hs
        refine ⟨v, w, rfl, hj ▸ hr, ?_⟩
        cases hc : Cond.compare .eq v w with
        | error e => rw [hc] at hs; cases hs
        | ok b' => rw [hc] at hs; injection hs with hs; rw [hs]
  rcases h with h | h
  · exact key _ rfl h
  · exact key _ (by rw [Arith.value]) h

/-- Does some member of the list satisfy the test? -/
theorem in_meaning {f : JStr} {items : List Arith} {s : JStr} {neg : Bool} (h : Writes s (.isIn f neg items))
    {env : Env} {d : Data} {df : Option JStr} (hdf : DefaultOk df) {v : Value} {vs : List Value}
    (hv : Arith.fieldValue f d = .ok v) (hvs : Arith.values env d items = .ok vs) :
    evaluate env s d df = .ofResult ((Cond.member v vs).map (fun b => if neg then !b else b)) := by
  rw [h.eval env d hdf, Cond.meaning, hv, ok_bind, hvs, ok_bind]
  cases Cond.member v vs <;> rfl

/-- **C10**, on values: the field's value is compared with the items' values, a collection counting as its
elements; the test holds iff one of them is equal in the sense of `=`. -/
theorem C10_values {f : JStr} {items : List Arith} {s : JStr} (h : Writes s (.isIn f false items)) {env : Env}
    {d : Data} {df : Option JStr} (hdf : DefaultOk df) {v : Value} {vs : List Value}
    (hv : (Arith.field f).value env d = .ok v) (hvs : Arith.values env d items = .ok vs)
    (hne : vs.flatMap elements ≠ []) (hok : ∀ w ∈ vs.flatMap elements, ∃ b, Cond.compare .eq v w = .ok b) :
    (∃ b, evaluate env s d df = .success b) ∧
    (evaluate env s d df = .success true ↔ ∃ w ∈ vs.flatMap elements, Cond.compare .eq v w = .ok true) := by
  rw [Arith.value] at hv
  rw [in_meaning h hdf hv hvs, member_eq hne]
  classical
  have : anyM' (fun w => Cond.compare .eq v w) (vs.flatMap elements)
      = .ok (decide (∃ w ∈ vs.flatMap elements, Cond.compare .eq v w = .ok true)) := by
    apply anyM'_ok
    intro w hw
    obtain ⟨b, hb⟩ := hok w hw
    rw [hb]
    cases b <;> simp
  rw [this]
  refine ⟨⟨_, rfl⟩, ?_⟩
  show Outcome.success _ = _ ↔ _
  rw [success_inj]
  simp

/-- **C10**, first failure: items are compared from left to right, up to the first equal one or the first
failure. -/
theorem C10_sequential {f : JStr} {items : List Arith} {s : JStr} (h : Writes s (.isIn f false items)) {env : Env}
    {d : Data} {df : Option JStr} (hdf : DefaultOk df) {v : Value} {vs : List Value}
    (hv : (Arith.field f).value env d = .ok v) (hvs : Arith.values env d items = .ok vs)
    (hne : vs.flatMap elements ≠ []) :
    evaluate env s d df = firstTrue ((vs.flatMap elements).map (fun w => .ofResult (Cond.compare .eq v w))) := by
  rw [Arith.value] at hv
  rw [in_meaning h hdf hv hvs, member_eq hne]
  generalize vs.flatMap elements = ws
  induction ws with
  | nil => rfl
  | cons w ws ih =>
    rw [anyM']
    cases hc : Cond.compare .eq v w with
    | error e => simp only [List.map_cons, hc]; rfl
    | ok b =>
      simp only [List.map_cons, hc, ok_bind]
      cases b with
      | true => rfl
      | false => exact ih

/-- **C10**, on texts: `f IN (i₁, …, iₙ)` is true iff one of the texts `f = i₁`, …, `f = iₙ` evaluates to true,
as long as none of them fails and no item is a collection. -/
theorem C10_texts {f : JStr} {items : List Arith} {s : JStr} {ts : List JStr} (h : Writes s (.isIn f false items))
    (hts : List.Forall₂ (fun i t => WritesEqual t f i) items ts) {env : Env} {d : Data} {df : Option JStr}
    (hdf : DefaultOk df) (hplain : ∀ i ∈ items, ∀ w, i.value env d = .ok w → elements w = [w])
    (hok : ∀ t ∈ ts, ∃ b, evaluate env t d df = .success b) :
    (∃ b, evaluate env s d df = .success b) ∧
    (evaluate env s d df = .success true ↔ ∃ t ∈ ts, evaluate env t d df = .success true) := by
  have hval : ∀ i ∈ items, ∃ w, i.value env d = .ok w := by
    intro i hi
    obtain ⟨t, ht, hw⟩ := forall₂_mem_left hts hi
    obtain ⟨b, hb⟩ := hok t ht
    obtain ⟨v, w, _, h2, _⟩ := hw.eval env d hdf hb
    exact ⟨w, h2⟩
  obtain ⟨vs, hvs⟩ := values_exists env d hval
  obtain ⟨_, hne, _⟩ := h.valid
  obtain ⟨i, rest, rfl⟩ := List.exists_cons_of_ne_nil hne
  obtain ⟨v, w0, hv, hw0, _⟩ : ∃ v w, Arith.fieldValue f d = .ok v ∧ i.value env d = .ok w ∧ True := by
    obtain ⟨t, ht, hw⟩ := forall₂_mem_left hts (x := i) (by simp)
    obtain ⟨b, hb⟩ := hok t ht
    obtain ⟨v, w, h1, h2, _⟩ := hw.eval env d hdf hb
    exact ⟨v, w, h1, h2, trivial⟩
  have hmem := mem_flat env d hvs
  have hflat : vs.flatMap elements ≠ [] := by
    intro hnil
    have : w0 ∈ vs.flatMap elements :=
      (hmem w0).mpr ⟨i, by simp, w0, hw0, by rw [hplain i (by simp) w0 hw0]; simp⟩
    rw [hnil] at this; cases this
  have heach : ∀ w ∈ vs.flatMap elements, ∃ t ∈ ts, ∃ b, evaluate env t d df = .success b ∧
      Cond.compare .eq v w = .ok b := by
    intro w hw
    obtain ⟨j, hj, u, hu, hwu⟩ := (hmem w).mp hw
    rw [hplain j hj u hu, List.mem_singleton] at hwu
    subst hwu
    obtain ⟨t, ht, hw⟩ := forall₂_mem_left hts hj
    obtain ⟨b, hb⟩ := hok t ht
    obtain ⟨v', w', h1, h2, h3⟩ := hw.eval env d hdf hb
    rw [hv] at h1; injection h1 with h1; subst h1
    rw [hu] at h2; injection h2 with h2; subst h2
    exact ⟨t, ht, b, hb, h3⟩
  obtain ⟨r1, r2⟩ := C10_values h hdf (by rw [Arith.value]; exact hv) hvs hflat
    (fun w hw => by obtain ⟨t, _, b, _, hb⟩ := heach w hw; exact ⟨b, hb⟩)
  refine ⟨r1, r2.trans ⟨?_, ?_⟩⟩
  · rintro ⟨w, hw, hc⟩
    obtain ⟨t, ht, b, hb, hcb⟩ := heach w hw
    rw [hc] at hcb; injection hcb with hcb; subst hcb
    exact ⟨t, ht, hb⟩
  · rintro ⟨t, ht, hb⟩
    obtain ⟨j, hj, hw⟩ := forall₂_mem_right hts ht
    obtain ⟨v', w', h1, h2, h3⟩ := hw.eval env d hdf hb
    rw [hv] at h1; injection h1 with h1; subst h1
    exact ⟨w', (hmem w').mpr ⟨j, hj, w', h2, by rw [hplain j hj w' h2]; simp⟩, h3⟩

/-- **C10**, order and repetition of the items do not matter as long as no comparison fails. -/
theorem C10_invariant {f : JStr} {items items' : List Arith} {s s' : JStr} {neg : Bool}
    (h : Writes s (.isIn f neg items)) (h' : Writes s' (.isIn f neg items')) (hsame : ∀ i, i ∈ items ↔ i ∈ items')
    {env : Env} {d : Data} {df : Option JStr} (hdf : DefaultOk df)
    (hok : ∀ v, (Arith.field f).value env d = .ok v → ∀ i ∈ items, ∃ w, i.value env d = .ok w ∧
      ∀ x ∈ elements w, ∃ b, Cond.compare .eq v x = .ok b) :
    evaluate env s d df = evaluate env s' d df := by
  cases hv : Arith.fieldValue f d with
  | error e =>
    rw [h.eval env d hdf, h'.eval env d hdf, Cond.meaning, Cond.meaning, hv]; rfl
  | ok v =>
    have hok' := hok v (by rw [Arith.value]; exact hv)
    obtain ⟨vs, hvs⟩ := values_exists env d (es := items) (fun i hi => by
      obtain ⟨w, hw, _⟩ := hok' i hi; exact ⟨w, hw⟩)
    obtain ⟨vs', hvs'⟩ := values_exists env d (es := items') (fun i hi => by
      obtain ⟨w, hw, _⟩ := hok' i ((hsame i).mpr hi); exact ⟨w, hw⟩)
    have hm := mem_flat env d hvs
    have hm' := mem_flat env d hvs'
    have heq : ∀ w, w ∈ vs.flatMap elements ↔ w ∈ vs'.flatMap elements := by
      intro w; rw [hm, hm']
      constructor
      · rintro ⟨i, hi, r⟩; exact ⟨i, (hsame i).mp hi, r⟩
      · rintro ⟨i, hi, r⟩; exact ⟨i, (hsame i).mpr hi, r⟩
    rw [in_meaning h hdf hv hvs, in_meaning h' hdf hv hvs']
    congr 2
    by_cases hnil : vs.flatMap elements = []
    · have hnil' : vs'.flatMap elements = [] := by
        rw [List.eq_nil_iff_forall_not_mem]; intro w hw; rw [← heq, hnil] at hw; cases hw
      unfold Cond.member
      rw [flattenItems_elements, flattenItems_elements, hnil, hnil']
    · have hnil' : vs'.flatMap elements ≠ [] := by
        intro hn; apply hnil
        rw [List.eq_nil_iff_forall_not_mem]; intro w hw; rw [heq, hn] at hw; cases hw
      rw [member_eq hnil, member_eq hnil']
      classical
      have hall : ∀ w ∈ vs.flatMap elements,
          Cond.compare .eq v w = .ok (decide (Cond.compare .eq v w = .ok true)) := by
        intro w hw
        obtain ⟨i, hi, u, hu, hwu⟩ := (hm w).mp hw
        obtain ⟨u', hu', hx⟩ := hok' i hi
        rw [hu] at hu'; injection hu' with hu'; subst hu'
        obtain ⟨b, hb⟩ := hx w hwu
        rw [hb]; cases b <;> simp
      rw [anyM'_ok (p := fun w => Cond.compare .eq v w = .ok true) hall,
        anyM'_ok (p := fun w => Cond.compare .eq v w = .ok true) (fun w hw => hall w ((heq w).mpr hw))]
      congr 2
      simp only [eq_iff_iff]
      exact ⟨fun ⟨w, hw, hc⟩ => ⟨w, (heq w).mp hw, hc⟩, fun ⟨w, hw, hc⟩ => ⟨w, (heq w).mpr hw, hc⟩⟩

/-- With failures the order matters: `NaN` compared with a boolean. -/
theorem C10_order_matters (env : Env) :
    evaluate env j!"a IN (1, b)" [(['a'], .int 1), (['b'], .dbl j!"NaN")] none = .success true ∧
    evaluate env j!"a IN (b, 1)" [(['a'], .int 1), (['b'], .dbl j!"NaN")] none = .failure .invalidDataType :=
  ⟨by krfl, by krfl⟩

example (env : Env) (n : Int) (hn : InInt32 n) :
    evaluate env j!"a IN (3, 4 + 1, b)" [(['a'], .int n), (['b'], .list [.int 7, .int 8])] none = .success true ↔
      n = 3 ∨ n = 5 ∨ n = 7 ∨ n = 8 := by
  have hc : ∀ m : Int, InInt32 m → Cond.compare .eq (.int n) (.int m) = .ok (decide (n = m)) := by
    intro m hm
    rw [compare_num .eq (.int hn) (.int hm)]; simp [Rel]
  have hvs : Arith.values env [(['a'], .int n), (['b'], .list [.int 7, .int 8])]
      [.lit (.int ['3']), .op .add (.lit (.int ['4'])) (.lit (.int ['1'])), .field ['b']] =
      .ok [.int 3, .int 5, .list [.int 7, .int 8]] := by krfl
  have := (C10_values (f := ['a']) (items := [.lit (.int ['3']), .op .add (.lit (.int ['4'])) (.lit (.int ['1'])),
    .field ['b']]) (s := j!"a IN (3, 4 + 1, b)") (writes_of (by krfl)) (env := env) (d := [(['a'], .int n), (['b'], .list [.int 7, .int 8])])
    noDefault (v := .int n) (by rfl) hvs (by simp [elements]) (by
      simp only [List.flatMap_cons, elements, List.flatMap_nil]
      intro w hw
      simp at hw
      rcases hw with rfl | rfl | rfl | rfl <;> exact ⟨_, hc _ (by decide)⟩)).2
  rw [show (j!"a IN (3, 4 + 1, b)" : JStr) = j!"a IN (3, 4 + 1, b)" from rfl, this]
  simp [elements, hc 3 (by decide), hc 5 (by decide), hc 7 (by decide), hc 8 (by decide)]

/-- `C10_texts` with `a = 1`, `a = 'x'`. -/
example (env : Env) (d : Data) (h1 : ∃ b, evaluate env j!"a = 1" d none = .success b)
    (h2 : ∃ b, evaluate env j!"a = 'x'" d none = .success b) :
    evaluate env j!"a IN (1, 'x')" d none = .success true ↔
      evaluate env j!"a = 1" d none = .success true ∨ evaluate env j!"a = 'x'" d none = .success true := by
  have := (C10_texts (f := ['a']) (items := [.lit (.int ['1']), .lit (.str '\'' ['x'])])
    (s := j!"a IN (1, 'x')") (ts := [j!"a = 1", j!"a = 'x'"]) (writes_of (by krfl))
    (.cons (.inl (writes_of (by krfl))) (.cons (.inl (writes_of (by krfl))) .nil)) (env := env) (d := d) noDefault
    (by intro i hi w hw
        simp at hi
        rcases hi with rfl | rfl <;> (rw [Arith.value] at hw; injection hw with hw; subst hw; rfl))
    (by intro t ht; rcases List.mem_cons.mp ht with rfl | ht
        · exact h1
        · rw [List.mem_singleton] at ht; subst ht; exact h2)).2
  rw [this]; simp

/-! ## C11 NOT IN -/

/-- **C11.** -/
theorem C11_not_in {f : JStr} {items : List Arith} {s s' : JStr} (h : Writes s (.isIn f false items))
    (h' : Writes s' (.isIn f true items)) (env : Env) (d : Data) {df : Option JStr} (hdf : DefaultOk df) :
    evaluate env s' d df = (evaluate env s d df).map (!·) := by
  rw [h.eval env d hdf, h'.eval env d hdf, Cond.meaning, Cond.meaning]
  cases Arith.fieldValue f d with
  | error e => rfl
  | ok v =>
    cases Arith.values env d items with
    | error e => rfl
    | ok vs => simp only [ok_bind]; cases Cond.member v vs <;> rfl

example (env : Env) (d : Data) :
    evaluate env j!"a not in (1, b)" d none = (evaluate env j!"a IN (1,b)" d none).map (!·) :=
  C11_not_in (f := ['a']) (items := [.lit (.int ['1']), .field ['b']]) (writes_of (by krfl)) (writes_of (by krfl))
    env d noDefault

/-! ## C12, C13 CONTAINS_ALL, CONTAINS_ANY -/

theorem contains_meaning {f : JStr} {o : ArrOp} {items : List Arith} {s : JStr} (h : Writes s (.contains f o items))
    {env : Env} {d : Data} {df : Option JStr} (hdf : DefaultOk df) {v : Value} {vs : List Value}
    (hv : (Arith.field f).value env d = .ok v) (hvs : Arith.values env d items = .ok vs) :
    evaluate env s d df = .ofResult (Cond.containsTest o v vs) := by
  rw [Arith.value] at hv
  rw [h.eval env d hdf, Cond.meaning, hv, ok_bind, hvs, ok_bind]

/-- All values have the same data type. -/
def OneType (ws : List Value) : Prop := ∀ x ∈ ws, ∀ y ∈ ws, getDataType x = getDataType y

/-- **C12**, CONTAINS_ALL: every item has an element with the same text. -/
theorem C12_contains_all {f : JStr} {items : List Arith} {s : JStr} (h : Writes s (.contains f .containsAll items))
    {env : Env} {d : Data} {df : Option JStr} (hdf : DefaultOk df) {xs vs : List Value}
    (hv : (Arith.field f).value env d = .ok (.list xs)) (hvs : Arith.values env d items = .ok vs)
    (ht : OneType (vs.flatMap elements)) (hx : ∀ x ∈ xs, x ≠ .null) (hw : ∀ w ∈ vs.flatMap elements, w ≠ .null) :
    evaluate env s d df = .success (decide (∀ w ∈ vs.flatMap elements, ∃ x ∈ xs, x.text = w.text)) := by
  rw [contains_meaning h hdf hv hvs, containsTest_all ht hx hw]; rfl

/-- **C12**, CONTAINS_ANY: some item has an element with the same text. -/
theorem C12_contains_any {f : JStr} {items : List Arith} {s : JStr} (h : Writes s (.contains f .containsAny items))
    {env : Env} {d : Data} {df : Option JStr} (hdf : DefaultOk df) {xs vs : List Value}
    (hv : (Arith.field f).value env d = .ok (.list xs)) (hvs : Arith.values env d items = .ok vs)
    (ht : OneType (vs.flatMap elements)) (hx : ∀ x ∈ xs, x ≠ .null) (hw : ∀ w ∈ vs.flatMap elements, w ≠ .null) :
    evaluate env s d df = .success (decide (∃ w ∈ vs.flatMap elements, ∃ x ∈ xs, x.text = w.text)) := by
  rw [contains_meaning h hdf hv hvs, containsTest_any ht hx hw]; rfl

/-- **C12**, order and repetition matter on neither side. -/
theorem C12_invariant {f : JStr} {o : ArrOp} {items items' : List Arith} {s s' : JStr}
    (h : Writes s (.contains f o items)) (h' : Writes s' (.contains f o items'))
    (hsame : ∀ i, i ∈ items ↔ i ∈ items') {env : Env} {d d' : Data} {df : Option JStr} (hdf : DefaultOk df)
    {xs xs' vs : List Value} (hv : (Arith.field f).value env d = .ok (.list xs))
    (hv' : (Arith.field f).value env d' = .ok (.list xs')) (hxs : ∀ x, x ∈ xs ↔ x ∈ xs')
    (hvs : Arith.values env d items = .ok vs) (hd : ∀ i ∈ items, i.value env d' = i.value env d)
    (ht : OneType (vs.flatMap elements)) (hx : ∀ x ∈ xs, x ≠ .null) (hw : ∀ w ∈ vs.flatMap elements, w ≠ .null) :
    evaluate env s d df = evaluate env s' d' df := by
  have hval : ∀ i ∈ items', ∃ w, i.value env d' = .ok w := by
    intro i hi
    obtain ⟨w, _, h1⟩ := forall₂_mem_left ((values_forall env d items vs).mp hvs) ((hsame i).mpr hi)
    exact ⟨w, by rw [hd i ((hsame i).mpr hi)]; exact h1⟩
  obtain ⟨vs', hvs'⟩ := values_exists env d' hval
  have heq : ∀ w, w ∈ vs'.flatMap elements ↔ w ∈ vs.flatMap elements := by
    intro w
    rw [mem_flat env d hvs, mem_flat env d' hvs']
    constructor
    · rintro ⟨i, hi, v, h1, h2⟩
      exact ⟨i, (hsame i).mpr hi, v, by rw [← hd i ((hsame i).mpr hi)]; exact h1, h2⟩
    · rintro ⟨i, hi, v, h1, h2⟩
      exact ⟨i, (hsame i).mp hi, v, by rw [hd i hi]; exact h1, h2⟩
  have ht' : OneType (vs'.flatMap elements) := fun x hx y hy => ht x ((heq x).mp hx) y ((heq y).mp hy)
  have hw' : ∀ w ∈ vs'.flatMap elements, w ≠ .null := fun w hm => hw w ((heq w).mp hm)
  have hx' : ∀ x ∈ xs', x ≠ .null := fun x hm => hx x ((hxs x).mpr hm)
  cases o with
  | containsAll =>
    rw [C12_contains_all h hdf hv hvs ht hx hw, C12_contains_all h' hdf hv' hvs' ht' hx' hw']
    simp only [heq, hxs]
  | containsAny =>
    rw [C12_contains_any h hdf hv hvs ht hx hw, C12_contains_any h' hdf hv' hvs' ht' hx' hw']
    simp only [heq, hxs]

/-- **C12**, a value that is not a `List` (also a `Set` or an array): failure. -/
theorem C12_not_a_list {f : JStr} {o : ArrOp} {items : List Arith} {s : JStr} (h : Writes s (.contains f o items))
    {env : Env} {d : Data} {df : Option JStr} (hdf : DefaultOk df) {v : Value}
    (hv : (Arith.field f).value env d = .ok v) (hl : ∀ xs, v ≠ .list xs) :
    ∃ e, evaluate env s d df = .failure e := by
  rw [Arith.value] at hv
  rw [h.eval env d hdf, Cond.meaning, hv, ok_bind]
  cases Arith.values env d items with
  | error e => exact ⟨e, rfl⟩
  | ok vs =>
    obtain ⟨e, he⟩ := containsTest_nonlist (o := o) (vs := vs) hl
    exact ⟨e, by rw [ok_bind, he]; rfl⟩

/-- **C13.** Items of two different data types are rejected, wherever they stand and whatever the field's
value is. -/
theorem C13_mixed_items {f : JStr} {o : ArrOp} {items : List Arith} {s : JStr} (h : Writes s (.contains f o items))
    {env : Env} {d : Data} {df : Option JStr} (hdf : DefaultOk df) {v : Value} {vs : List Value}
    (hv : (Arith.field f).value env d = .ok v) (hvs : Arith.values env d items = .ok vs) {x y : Value}
    (hx : x ∈ vs.flatMap elements) (hy : y ∈ vs.flatMap elements) (hne : getDataType x ≠ getDataType y) :
    evaluate env s d df = .failure .heterogeneousArray := by
  rw [contains_meaning h hdf hv hvs, containsTest_hetero ⟨x, hx, y, hy, hne⟩]; rfl

/-- **C13**, in terms of the items as written. -/
theorem C13_items {f : JStr} {o : ArrOp} {items : List Arith} {s : JStr} (h : Writes s (.contains f o items))
    {env : Env} {d : Data} {df : Option JStr} (hdf : DefaultOk df) {v : Value}
    (hv : (Arith.field f).value env d = .ok v) (hok : ∀ i ∈ items, ∃ w, i.value env d = .ok w) {i j : Arith}
    (hi : i ∈ items) (hj : j ∈ items) {x y : Value} (hx : i.value env d = .ok x) (hy : j.value env d = .ok y)
    (px : elements x = [x]) (py : elements y = [y]) (hne : getDataType x ≠ getDataType y) :
    evaluate env s d df = .failure .heterogeneousArray := by
  obtain ⟨vs, hvs⟩ := values_exists env d hok
  exact C13_mixed_items h hdf hv hvs ((mem_flat env d hvs x).mpr ⟨i, hi, x, hx, by rw [px]; simp⟩)
    ((mem_flat env d hvs y).mpr ⟨j, hj, y, hy, by rw [py]; simp⟩) hne

example (env : Env) (xs : List Value) (hx : ∀ x ∈ xs, x ≠ .null) :
    evaluate env j!"tags CONTAINS_ALL ('a', 'b')" [(j!"tags", .list xs)] none =
      .success (decide ((∃ x ∈ xs, x.text = ['a']) ∧ (∃ x ∈ xs, x.text = ['b']))) := by
  rw [C12_contains_all (f := j!"tags") (items := [.lit (.str '\'' ['a']), .lit (.str '\'' ['b'])])
    (writes_of (by krfl)) noDefault (xs := xs) (vs := [.str ['a'], .str ['b']]) (by rfl) (by rfl)
    (by intro x hx y hy; simp [elements] at hx hy; rcases hx with rfl | rfl <;> rcases hy with rfl | rfl <;> rfl)
    hx (by simp [elements])]
  simp [elements, Value.text]

/-- A whole number and text have the same text: `[1, 2]` contains `'2'`. -/
example (env : Env) : evaluate env j!"tags contains_any ('2', '7')" [(j!"tags", .list [.int 1, .int 2])] none =
    .success true := by krfl

example (env : Env) : evaluate env j!"tags CONTAINS_ANY (1, 'b')" [(j!"tags", .int 5)] none =
    .failure .heterogeneousArray :=
  C13_items (f := j!"tags") (o := .containsAny) (items := [.lit (.int ['1']), .lit (.str '\'' ['b'])]) (writes_of (by krfl)) noDefault
    (v := .int 5) (by rfl) (by simp [Arith.value]) (i := .lit (.int ['1'])) (j := .lit (.str '\'' ['b']))
    (by simp) (by simp) (x := .int 1) (y := .str ['b']) (by rfl) (by rfl) rfl rfl (by decide)

/-- A `Set` is a collection, and still rejected. -/
theorem C12_set_fails (env : Env) :
    evaluate env j!"tags CONTAINS_ANY ('a')" [(j!"tags", .coll [.str ['a']])] none = .failure .classCast := by krfl

/-! ## C14 Missing data -/

mutual
theorem value_missing {f : JStr} {ks : List JStr} (hn : Names f ks) {env : Env} {d : Data} (hm : Missing d ks) :
    (e : Arith) → f ∈ e.fields → ∃ x, e.value env d = .error x
  | .field g => fun h => by
    rw [Arith.fields, List.mem_singleton] at h; subst h
    exact ⟨_, by rw [Arith.value]; exact fieldValue_missing hn hm⟩
  | .lit _ => fun h => by rw [Arith.fields] at h; cases h
  | .group e => fun h => by rw [Arith.value]; rw [Arith.fields] at h; exact value_missing hn hm e h
  | .op o l r => fun h => by
    rw [Arith.fields, List.mem_append] at h
    rw [Arith.value]
    cases hl : l.value env d with
    | error x => exact ⟨x, rfl⟩
    | ok a =>
      rcases h with h | h
      · obtain ⟨x, hx⟩ := value_missing hn hm l h
        rw [hl] at hx; cases hx
      · obtain ⟨x, hx⟩ := value_missing hn hm r h
        exact ⟨x, by rw [ok_bind, hx]; rfl⟩
  | .neg e => fun h => by
    rw [Arith.fields] at h
    obtain ⟨x, hx⟩ := value_missing hn hm e h
    exact ⟨x, by rw [Arith.value, hx]; rfl⟩
  | .call g args => fun h => by
    rw [Arith.fields] at h
    obtain ⟨x, hx⟩ := values_missing hn hm args h
    exact ⟨x, by rw [Arith.value, hx]; rfl⟩
theorem values_missing {f : JStr} {ks : List JStr} (hn : Names f ks) {env : Env} {d : Data} (hm : Missing d ks) :
    (es : List Arith) → f ∈ Arith.allFields es → ∃ x, Arith.values env d es = .error x
  | [] => fun h => by rw [Arith.allFields] at h; cases h
  | e :: es => fun h => by
    rw [Arith.allFields, List.mem_append] at h
    rw [Arith.values]
    cases hl : e.value env d with
    | error x => exact ⟨x, rfl⟩
    | ok a =>
      rcases h with h | h
      · obtain ⟨x, hx⟩ := value_missing hn hm e h
        rw [hl] at hx; cases hx
      · obtain ⟨x, hx⟩ := values_missing hn hm es h
        exact ⟨x, by rw [ok_bind, hx]; rfl⟩
end

/-- A comparison, range test, IN, NOT IN or CONTAINS test (not a null check, not a combination). -/
def Cond.isTest : Cond → Bool
  | .cmp _ _ _ => true
  | .cmpD _ _ => true
  | .range _ _ _ => true
  | .isIn _ _ _ => true
  | .contains _ _ _ => true
  | .notField _ => true
  | _ => false

/-- **C14.** If a field mentioned anywhere in a test is missing, the evaluation is a failure. -/
theorem C14_missing {c : Cond} {s : JStr} (h : Writes s c) (ht : Cond.isTest c = true) {f : JStr} {ks : List JStr}
    (hn : Names f ks) (env : Env) {d : Data} {df : Option JStr} (hdf : DefaultOk df) (hf : f ∈ c.fields df)
    (hm : Missing d ks) : ∃ e, evaluate env s d df = .failure e := by
  rw [h.eval env d hdf]
  suffices hs : ∃ e, c.meaning env d df = .error e by
    obtain ⟨e, he⟩ := hs; exact ⟨e, by rw [he]; rfl⟩
  have right : ∀ r : Arith, f ∈ r.fields → ∃ e, Cond.rightValue env d r = .error e := by
    intro r hr
    obtain ⟨x, hx⟩ := value_missing (env := env) hn hm r hr
    exact rightValue_error hx
  cases c with
  | cmp o l r =>
    rw [Cond.fields, List.mem_append] at hf
    rw [Cond.meaning]
    cases hl : l.value env d with
    | error x => exact ⟨x, rfl⟩
    | ok a =>
      rcases hf with hf | hf
      · obtain ⟨x, hx⟩ := value_missing (env := env) hn hm l hf
        rw [hl] at hx; cases hx
      · obtain ⟨x, hx⟩ := right r hf
        exact ⟨x, by rw [ok_bind, hx]; rfl⟩
  | cmpD o r =>
    rw [Cond.fields, List.mem_append] at hf
    rw [Cond.meaning]
    cases hl : Cond.defaultValue df d with
    | error x => exact ⟨x, rfl⟩
    | ok a =>
      rcases hf with hf | hf
      · cases df with
        | none => cases hf
        | some g =>
          simp at hf; subst hf
          simp only [Cond.defaultValue] at hl
          rw [fieldValue_missing hn hm] at hl; cases hl
      · obtain ⟨x, hx⟩ := right r hf
        exact ⟨x, by rw [ok_bind, hx]; rfl⟩
  | range g lo hi =>
    rw [Cond.fields, List.mem_singleton] at hf; subst hf
    exact ⟨_, by rw [Cond.meaning, fieldValue_missing hn hm]; rfl⟩
  | isIn g neg items =>
    rw [Cond.fields, List.mem_cons] at hf
    rw [Cond.meaning]
    cases hl : Arith.fieldValue g d with
    | error x => exact ⟨x, rfl⟩
    | ok a =>
      rcases hf with rfl | hf
      · rw [fieldValue_missing hn hm] at hl; cases hl
      · obtain ⟨x, hx⟩ := values_missing (env := env) hn hm items hf
        exact ⟨x, by rw [ok_bind, hx]; rfl⟩
  | contains g o items =>
    rw [Cond.fields, List.mem_cons] at hf
    rw [Cond.meaning]
    cases hl : Arith.fieldValue g d with
    | error x => exact ⟨x, rfl⟩
    | ok a =>
      rcases hf with rfl | hf
      · rw [fieldValue_missing hn hm] at hl; cases hl
      · obtain ⟨x, hx⟩ := values_missing (env := env) hn hm items hf
        exact ⟨x, by rw [ok_bind, hx]; rfl⟩
  | notField g =>
    rw [Cond.fields, List.mem_singleton] at hf; subst hf
    exact ⟨_, by rw [Cond.meaning, fieldValue_missing hn hm]; rfl⟩
  | _ => cases ht

/-- **C14**, arithmetic: an arithmetic expression that mentions a missing field fails. -/
theorem C14_missing_arith {e : Arith} {s : JStr} (h : WritesArith s e) {f : JStr} {ks : List JStr} (hn : Names f ks)
    (env : Env) {d : Data} (hf : f ∈ e.fields) (hm : Missing d ks) : ∃ x, evaluateArith env s d = .failure x := by
  obtain ⟨x, hx⟩ := value_missing (env := env) hn hm e hf
  exact ⟨x, by rw [h.eval env d, hx]; rfl⟩

/-- **C14**, which failure: a missing field that is tested (on the left of a comparison, range, IN, CONTAINS)
is a `DataNotFoundException`. -/
theorem C14_left {c : Cond} {s : JStr} (h : Writes s c) {f : JStr} {ks : List JStr} (hn : Names f ks) (env : Env)
    {d : Data} {df : Option JStr} (hdf : DefaultOk df) (hm : Missing d ks)
    (hc : (∃ o r, c = .cmp o (.field f) r) ∨ (∃ lo hi, c = .range f lo hi) ∨ (∃ n is, c = .isIn f n is) ∨
      (∃ o is, c = .contains f o is)) : evaluate env s d df = .failure .dataNotFound := by
  rw [h.eval env d hdf]
  have := fieldValue_missing hn hm
  rcases hc with ⟨o, r, rfl⟩ | ⟨lo, hi, rfl⟩ | ⟨n, is, rfl⟩ | ⟨o, is, rfl⟩
  · rw [Cond.meaning, Arith.value, this]; rfl
  · rw [Cond.meaning, this]; rfl
  · rw [Cond.meaning, this]; rfl
  · rw [Cond.meaning, this]; rfl

theorem names_a : Names ['a'] [['a']] := ⟨⟨by simp, by decide, by decide⟩, 0, by rfl⟩

example (env : Env) : ∃ e, evaluate env j!"b IN (1, min(2, a))" [(['b'], .int 1)] none = .failure e :=
  C14_missing (c := .isIn ['b'] false [.lit (.int ['1']), .call .min [.lit (.int ['2']), .field ['a']]])
    (writes_of (by krfl)) rfl names_a env noDefault (by simp [Cond.fields, Arith.allFields, Arith.fields])
    ((walkKeys_none (by simp) _).mp (by krfl))

example (env : Env) : ∃ e, evaluateArith env j!"b * (a + 1)" [(['b'], .int 1), (['a'], .null)] = .failure e :=
  C14_missing_arith (e := .op .mul (.field ['b']) (.group (.op .add (.field ['a']) (.lit (.int ['1'])))))
    (writesArith_of (by krfl)) names_a env (by simp [Arith.fields])
    ((walkKeys_none (by simp) _).mp (by krfl))

/-- A missing right operand is reported with another exception. -/
theorem C14_right (env : Env) :
    evaluate env j!"b = a" [(['b'], .int 1)] none = .failure .noSuchElement := by krfl

/-! ## C15 Null checks -/

theorem nullCheck_some {v : Value} (hn : v ≠ .null) (hv : isValid (getDataType v) v = .ok true) (eq : Bool) :
    Cond.nullCheck (if eq then .eq else .ne) (some v) =
      .ok (if eq then decide (v.text = j!"null") else !decide (v.text = j!"null")) := by
  have h : Cond.compare .eq v (.str j!"null") = .ok (decide (v.text = j!"null")) := by
    rw [compare_eqop (.inl rfl), hv]
    have h0 : getDataType (.str j!"null") = .string := by krfl
    have := evalEq_text (w := v) (x := .str j!"null") hn (by simp) (getDataType v)
    rw [h0]
    simp only [ok_bind, Bool.not_true, Bool.false_eq_true, if_false]
    have h2 : evalEq .eq v (getDataType v) (.str j!"null") .string =
      (comparePrim (comparableType (getDataType v) .string) v (.str j!"null")).map CmpOp.eq.test := by
      unfold evalEq; cases comparePrim (comparableType (getDataType v) .string) v (.str j!"null") <;> rfl
    rw [← h2, this]
    congr 1
    apply decide_eq_decide.mpr
    exact eq_comm
  cases eq with
  | true => exact h
  | false =>
    show Cond.compare .ne v (.str j!"null") = _
    rw [compare_ne, h]; rfl

/-- Not a `Double` or `Float` other than a number (NaN, infinities). -/
def NotNaN : Value → Prop
  | .dbl t => ∃ x, Numeral t x
  | .flt t => ∃ x, Numeral t x
  | _ => True

theorem notNaN_valid {v : Value} (hn : v ≠ .null) (h : NotNaN v) : isValid (getDataType v) v = .ok true := by
  rcases own_type hn with h' | ⟨h', ht⟩
  · exact h'
  · cases v with
    | dbl t => obtain ⟨x, hx⟩ := h; exact num_valid (.dbl hx)
    | flt t => obtain ⟨x, hx⟩ := h; exact num_valid (.flt hx)
    | str s =>
      exfalso
      simp only [getDataType] at h'
      split at h'
      · cases h'
      · split at h' <;> cases h'
    | _ => first | (exact absurd rfl hn) | rfl

/-- **C15**, missing: `f = null` is true, `f != null` false. -/
theorem C15_missing {f : JStr} {eq : Bool} {s : JStr} (h : Writes s (.isNull f eq)) {ks : List JStr}
    (hn : Names f ks) (env : Env) {d : Data} {df : Option JStr} (hdf : DefaultOk df) (hm : Missing d ks) :
    evaluate env s d df = .success eq := by
  rw [h.eval env d hdf, Cond.meaning, (lookup_none hn d).mpr hm, ok_bind]
  cases eq <;> krfl

/-- **C15**, present: `f = null` is true exactly if the value's text is `null`, `f != null` is the opposite. -/
theorem C15_present {f : JStr} {eq : Bool} {s : JStr} (h : Writes s (.isNull f eq)) {ks : List JStr}
    (hn : Names f ks) (env : Env) {d : Data} {df : Option JStr} (hdf : DefaultOk df) {v : Value}
    (hr : Reaches d ks v) (hv : NotNaN v) :
    evaluate env s d df =
      .success (if eq then decide (v.text = j!"null") else !decide (v.text = j!"null")) := by
  have hnn : v ≠ .null := by
    rintro rfl
    exact walkKeys_nn ks d ((walkKeys_some ks d .null).mpr hr)
  rw [h.eval env d hdf, Cond.meaning, (lookup_some hn d v).mpr hr, ok_bind, nullCheck_some hnn (notNaN_valid hnn hv)]
  rfl

/-- **C15**, `!=` is the opposite, failures included. -/
theorem C15_opposite {f : JStr} {s s' : JStr} (h : Writes s (.isNull f true)) (h' : Writes s' (.isNull f false))
    (env : Env) (d : Data) {df : Option JStr} (hdf : DefaultOk df) :
    evaluate env s' d df = (evaluate env s d df).map (!·) := by
  rw [h.eval env d hdf, h'.eval env d hdf, Cond.meaning, Cond.meaning]
  cases getValueFromMap f d with
  | error e => rfl
  | ok o =>
    simp only [ok_bind, Cond.nullCheck, Bool.false_eq_true, if_false, if_true]
    cases o with
    | none => krfl
    | some v =>
      simp only [compare_ne]
      cases Cond.compare .eq v (.str j!"null") <;> rfl

/-- The exceptions: a present text `null` counts as null, and for a NaN the check fails. -/
theorem C15_exceptions (env : Env) :
    evaluate env j!"a = null" [(['a'], .str j!"null")] none = .success true ∧
    evaluate env j!"a = null" [(['a'], .dbl j!"NaN")] none = .failure .invalidDataType := ⟨by krfl, by krfl⟩

example (env : Env) (n : Int) : evaluate env j!"a != null" [(['a'], .list [.int n])] none = .success true := by
  rw [C15_present (f := ['a']) (eq := false) (writes_of (by krfl)) names_a env noDefault (d := [(['a'], .list [.int n])])
    (v := .list [.int n]) (.leaf ⟨[], [], rfl, by simp⟩ (by simp)) trivial]
  simp [Value.text]

example (env : Env) : evaluate env j!"a  =null" [(['b'], .int 1)] none = .success true :=
  C15_missing (f := ['a']) (eq := true) (writes_of (by krfl)) names_a env noDefault
    ((walkKeys_none (by simp) _).mp (by krfl))

end BoolParser
