import Verif.Lemmas.Typing
import Verif.Props.Texts
/-!
# Properties C58 and C61: the reference semantics, and types

C61 the evaluators give the answer that the rules of `Verif/Spec/Reference.lean` give. C58 well typed expressions
(`Verif/Spec/Typing.lean`) never fail.
-/

namespace BoolParser
open Spec

/-! ## C61 The answers follow the rules -/

/-- **C61**, conditions: if the rules give a condition a truth value, evaluating a text of it succeeds with that
truth value. `Math.pow` must be exact where its result is a whole number of at most 53 bits. -/
theorem C61_condition {s : JStr} {c : Cond} (h : Writes s c) {env : Env} (hp : ExactPow env) {d : Data}
    {df : Option JStr} (hdf : DefaultOk df) {b : Bool} (hb : Holds env.today d df c b) :
    evaluate env s d df = .success b := by
  rw [h.eval env d hdf, holds_sound hp hb h.valid]; rfl

/-- **C61**, arithmetic: the result denotes the thing the rules give. -/
theorem C61_arithmetic {s : JStr} {e : Arith} (h : WritesArith s e) {env : Env} (hp : ExactPow env) {d : Data}
    {t : Thing} (ht : Computes env.today d e t) : ∃ v, evaluateArith env s d = .success v ∧ Is v t := by
  obtain ⟨v, h1, h2⟩ := computes_sound hp ht
  exact ⟨v, by rw [h.eval env d, h1]; rfl, h2⟩

/-- **C61**, the rules never give a condition two truth values. -/
theorem C61_consistent {s : JStr} {c : Cond} (h : Writes s c) {env : Env} (hp : ExactPow env) {d : Data}
    {df : Option JStr} {b b' : Bool} (hb : Holds env.today d df c b) (hb' : Holds env.today d df c b') : b = b' := by
  have h1 := holds_sound hp hb h.valid
  rw [holds_sound hp hb' h.valid] at h1
  exact (Except.ok.inj h1).symm

/-- `(price * quantity) > 100 AND (name = 'bob' OR tags CONTAINS_ANY ('new', 'sale'))`. -/
def orderCond : Cond :=
  .conn true
    (.cmp .gt (.group (.op .mul (.field j!"price") (.field j!"quantity"))) (.lit (.int j!"100")))
    (.group (.conn false
      (.cmp .eq (.field j!"name") (.lit (.str '\'' j!"bob")))
      (.contains j!"tags" .containsAny [.lit (.str '\'' j!"new"), .lit (.str '\'' j!"sale")])))

def orderText : JStr := j!"(price * quantity) > 100 AND (name = 'bob' OR tags CONTAINS_ANY ('new', 'sale'))"

theorem orderText_writes : Writes orderText orderCond := writes_of (by krfl)

/-- An order with any price, quantity, name and tags. -/
def orderData (p q : ℤ) (name : JStr) (tags : List JStr) : Data :=
  [(j!"price", .int p), (j!"quantity", .int q), (j!"name", .str name), (j!"tags", .list (tags.map .str))]

theorem reaches_of {d : Data} {k : JStr} {v : Value} (h : walkKeys [k] d = .ok (some v)) : Reaches d [k] v :=
  (walkKeys_some [k] d v).mp h

theorem names_price : Names j!"price" [j!"price"] := ⟨⟨by simp, by decide, by decide⟩, 0, rfl⟩
theorem names_quantity : Names j!"quantity" [j!"quantity"] := ⟨⟨by simp, by decide, by decide⟩, 0, rfl⟩
theorem names_name : Names j!"name" [j!"name"] := ⟨⟨by simp, by decide, by decide⟩, 0, rfl⟩
theorem names_tags : Names j!"tags" [j!"tags"] := ⟨⟨by simp, by decide, by decide⟩, 0, rfl⟩

theorem plain_bob : Ordinary j!"bob" := ordinary_plain (not_dateLike_dots (by decide))
theorem plain_eve : Ordinary j!"eve" := ordinary_plain (not_dateLike_dots (by decide))
theorem plain_new : Ordinary j!"new" := ordinary_plain (not_dateLike_dots (by decide))
theorem plain_sale : Ordinary j!"sale" := ordinary_plain (not_dateLike_dots (by decide))

theorem forall_is_text {ss : List JStr} (h : ∀ s ∈ ss, Ordinary s) :
    List.Forall₂ Is (ss.map .str) (ss.map .text) := by
  induction ss with
  | nil => exact .nil
  | cons s ss ih => exact .cons (.text (h s (by simp))) (ih (fun s' hs => h s' (by simp [hs])))

/-- What the rules say about such orders, whatever the price, the quantity, the name and the tags. -/
theorem order_holds (today : Date) {p q : ℤ} (hp : InInt32 p) (hq : InInt32 q) {name : JStr} (hn : Ordinary name)
    {tags : List JStr} (ht : ∀ t ∈ tags, Ordinary t) :
    Holds today (orderData p q name tags) none orderCond
      (decide (p * q > 100 ∧ (name = j!"bob" ∨ j!"new" ∈ tags ∨ j!"sale" ∈ tags))) := by
  have hw : Wrapped64 (p * q) (p * q) := by
    refine ⟨?_, rfl⟩
    obtain ⟨h1, h2⟩ := hp
    obtain ⟨h3, h4⟩ := hq
    constructor <;> nlinarith
  have h1 : Holds today (orderData p q name tags) none
      (.cmp .gt (.group (.op .mul (.field j!"price") (.field j!"quantity"))) (.lit (.int j!"100")))
      (decide (p * q > 100)) := by
    have := Holds.cmp (today := today) (d := orderData p q name tags) (df := none) (o := .gt)
      (l := .group (.op .mul (.field j!"price") (.field j!"quantity"))) (r := .lit (.int j!"100"))
      (.group (.op (.field names_price (reaches_of rfl) (.int hp)) (.field names_quantity (reaches_of rfl) (.int hq))
        (.mul_whole rfl rfl hw)))
      (.lit (t := .int 100) (.int (by decide)))
      (.numbers (x := p * q) (y := 100) (by unfold Thing.ofWhole; split <;> simp [Thing.number]) rfl)
    have e : (Rel .gt ((p : ℚ) * q) 100 ↔ p * q > 100) := by
      show (100 : ℚ) < p * q ↔ _
      exact_mod_cast Iff.rfl
    rwa [decide_eq_decide.mpr e] at this
  have h2 : Holds today (orderData p q name tags) none (.cmp .eq (.field j!"name") (.lit (.str '\'' j!"bob")))
      (decide (name = j!"bob")) := by
    have := Holds.cmp (today := today) (d := orderData p q name tags) (df := none) (o := .eq)
      (l := .field j!"name") (r := .lit (.str '\'' j!"bob")) (.field names_name (reaches_of rfl) (.text hn))
      (.lit (t := .text j!"bob") (.text plain_bob)) (.texts _ _)
    have e : (Rel .eq (utf16 name) (utf16 j!"bob") ↔ name = j!"bob") :=
      ⟨fun h => utf16_inj h, fun h => by rw [h]; rfl⟩
    rwa [decide_eq_decide.mpr e] at this
  have h3 : Holds today (orderData p q name tags) none
      (.contains j!"tags" .containsAny [.lit (.str '\'' j!"new"), .lit (.str '\'' j!"sale")])
      (decide (j!"new" ∈ tags ∨ j!"sale" ∈ tags)) := by
    have := Holds.contains_any (today := today) (d := orderData p q name tags) (df := none)
      (items := [.lit (.str '\'' j!"new"), .lit (.str '\'' j!"sale")]) (ts := [j!"new", j!"sale"])
      names_tags (reaches_of rfl) (forall_is_text ht)
      (.one (.lit (.text plain_new)) (.one (.lit (.text plain_sale)) .nil))
    simpa using this
  by_cases hpq : p * q > 100
  · rw [decide_eq_true hpq] at h1
    by_cases hb : name = j!"bob"
    · rw [decide_eq_true hb] at h2
      rw [decide_eq_true ⟨hpq, .inl hb⟩]
      exact .and h1 (.group (.or_true h2))
    · rw [decide_eq_false hb] at h2
      have : (p * q > 100 ∧ (name = j!"bob" ∨ j!"new" ∈ tags ∨ j!"sale" ∈ tags)) ↔ (j!"new" ∈ tags ∨ j!"sale" ∈ tags) :=
        ⟨fun h => h.2.resolve_left hb, fun h => ⟨hpq, .inr h⟩⟩
      rw [decide_eq_decide.mpr this]
      exact .and h1 (.group (.or h2 h3))
  · rw [decide_eq_false hpq] at h1
    rw [decide_eq_false (fun h => hpq h.1)]
    exact .and_false h1

example {p q : ℤ} (hp : InInt32 p) (hq : InInt32 q) {name : JStr} (hn : Ordinary name)
    {tags : List JStr} (ht : ∀ t ∈ tags, Ordinary t) :
    evaluate exactEnv orderText (orderData p q name tags) none =
      .success (decide (p * q > 100 ∧ (name = j!"bob" ∨ j!"new" ∈ tags ∨ j!"sale" ∈ tags))) :=
  C61_condition orderText_writes exactEnv_exact noDefault (order_holds _ hp hq hn ht)

example : InInt32 21 ∧ Ordinary j!"eve" ∧ ∀ t ∈ [j!"new", j!"sale"], Ordinary t :=
  ⟨by decide, plain_eve, by simp [plain_new, plain_sale]⟩

/-- `price * quantity - min (4, quantity)`. -/
theorem min_text : WritesArith j!"price * quantity - min (4, quantity)" (.op .sub
    (.op .mul (.field j!"price") (.field j!"quantity")) (.call .min [.lit (.int ['4']), .field j!"quantity"])) :=
  writesArith_of (by krfl)

example : ∃ v, evaluateArith exactEnv j!"price * quantity - min (4, quantity)"
    [(j!"price", .int 7), (j!"quantity", .int 3)] = .success v ∧ Is v (.int 18) :=
  C61_arithmetic min_text exactEnv_exact
    (.op (a := .int 21) (b := .int 3)
      (.op (.field names_price (reaches_of rfl) (.int (n := 7) (by decide)))
        (.field names_quantity (reaches_of rfl) (.int (n := 3) (by decide)))
        (.mul_whole (k := 21) rfl rfl ⟨by decide, rfl⟩))
      (.call (ts := [.int 4, .int 3])
        (.one (.lit (.int (by decide))) (.one (.field names_quantity (reaches_of rfl) (.int (by decide))) .nil))
        (.min_whole (ns := [4, 3]) (n := 3) rfl (by decide) ⟨by simp, by simp⟩ (.small (by decide))))
      (.sub_int ⟨by decide, rfl⟩))

/-! ## C58 Well typed expressions do not fail -/

/-- **C58**, conditions. -/
theorem C58_condition {s : JStr} {c : Cond} (h : Writes s c) {Γ : Schema} {df : Option JStr} (hdf : DefaultOk df)
    (hc : WellTyped Γ df c) (env : Env) {d : Data} (hd : Conforms d Γ) : ∃ b, evaluate env s d df = .success b := by
  obtain ⟨b, hb⟩ := wellTyped_sound (env := env) hd hc h.valid
  exact ⟨b, by rw [h.eval env d hdf, hb]; rfl⟩

/-- **C58**, arithmetic: the result has the type. -/
theorem C58_arithmetic {s : JStr} {e : Arith} (h : WritesArith s e) {Γ : Schema} {τ : Ty} (he : HasType Γ e τ)
    (env : Env) {d : Data} (hd : Conforms d Γ) : ∃ v t, evaluateArith env s d = .success v ∧ Is v t ∧ τ.Has t := by
  obtain ⟨v, t, h1, h2, h3⟩ := hasType_sound (env := env) hd he
  exact ⟨v, t, by rw [h.eval env d, h1]; rfl, h2, h3⟩

/-- The types of the fields of an order. -/
def orderSchema : Schema := fun f =>
  if f = j!"price" then some (.one .whole)
  else if f = j!"quantity" then some (.one .whole)
  else if f = j!"name" then some (.one .text)
  else if f = j!"tags" then some (.many .text)
  else none

theorem order_typed : WellTyped orderSchema none orderCond :=
  .conn
    (.cmp (τ := .whole) (.group (.ring_whole (.inr (.inr rfl)) (.field rfl) (.field rfl)))
      (.lit (by decide +kernel) (.int _)) trivial)
    (.group (.conn
      (.cmp (τ := .text) (.field rfl) (.lit (by decide +kernel) (.str _ _ plain_bob (by decide)))
        trivial)
      (.contains rfl (by
        intro e he
        simp only [List.mem_cons, List.not_mem_nil, or_false] at he
        rcases he with rfl | rfl
        · exact .lit (by decide +kernel) (.str _ _ plain_new (by decide))
        · exact .lit (by decide +kernel) (.str _ _ plain_sale (by decide))))))

theorem order_conforms {p q : ℤ} (hp : InInt32 p) (hq : InInt32 q) {name : JStr} (hn : Ordinary name)
    (hl : (utf16 name).length ≤ 2147483647) {tags : List JStr}
    (ht : ∀ t ∈ tags, Ordinary t ∧ (utf16 t).length ≤ 2147483647) :
    Conforms (orderData p q name tags) orderSchema := by
  intro f e hf
  unfold orderSchema at hf
  split at hf
  · cases hf; subst f; exact ⟨_, names_price, _, _, reaches_of rfl, .int hp, trivial⟩
  split at hf
  · cases hf; subst f; exact ⟨_, names_quantity, _, _, reaches_of rfl, .int hq, trivial⟩
  split at hf
  · cases hf; subst f; exact ⟨_, names_name, _, _, reaches_of rfl, .text hn, hl⟩
  split at hf
  · cases hf; subst f
    refine ⟨_, names_tags, _, reaches_of rfl, ?_⟩
    intro w hw
    obtain ⟨t, h1, rfl⟩ := List.mem_map.mp hw
    exact ⟨_, .text (ht t h1).1, (ht t h1).2⟩
  · cases hf

example (env : Env) : ∃ b, evaluate env orderText (orderData 5 30 j!"eve" [j!"new"]) none = .success b :=
  C58_condition orderText_writes noDefault order_typed env
    (order_conforms (by decide) (by decide) plain_eve (by decide) (by simp [plain_new]; decide))

/-- The same expression is not safe with other types: a name where the price should be fails. -/
theorem C58_types_needed (env : Env) :
    evaluate env orderText ((j!"price", .str j!"x") :: orderData 5 30 j!"eve" [j!"new"]) none =
      .failure .invalidDataType := by krfl

end BoolParser
