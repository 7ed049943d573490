import Verif.Props.Texts
import Verif.Lemmas.ParseFail
/-!
# What a failure says

C63 "data not found" blames a name that is missing, C64 how a text can be refused.

`Cut s ts` says that the lexer cuts the text `s` into the lexemes `ts` (C38); every text is cut in exactly one way.
-/

namespace BoolParser
open Spec

/-! ## C64 How a text can be refused -/

/-- **C64.** A text within the grammar that is refused before any data are looked at is refused in one of four ways:
as an invalid expression, with an empty stack, with a class cast, or with a number format failure; the latter only if
the text contains a whole number beyond 64 bits. -/
theorem C64_refusals {s : JStr} {ts : List JStr} (h : Cut s ts) {df : Option JStr} {e : Exn}
    (he : parseExpression s df = .failure e) :
    e = .invalidExpression ∨ e = .emptyStack ∨ e = .classCast ∨ (e = .numberFormat ∧ ∃ t ∈ ts, TooLarge t) := by
  rcases parse_within (fun t ht => (cut_texts h ht).2) he with he | he | he | ⟨he, t, ht, hl⟩
  · exact .inl he
  · exact .inr (.inl he)
  · exact .inr (.inr (.inl he))
  · exact .inr (.inr (.inr ⟨he, t.text, (cut_texts h ht).1, hl⟩))

/-- **C64**: a refused text is refused alike with all data, by both evaluators (the arithmetic evaluator knows no
default field). -/
theorem C64_all_data {s : JStr} {df : Option JStr} {e : Exn} (he : parseExpression s df = .failure e) (env : Env) (d : Data) :
    evaluate env s d df = .failure e ∧ (df = none → evaluateArith env s d = .failure e) := by
  refine ⟨by rw [evaluate, he]; rfl, ?_⟩
  rintro rfl
  rw [evaluateArith, he]; rfl

/-- **C64**: a text refused for its numbers contains one that is too large, so a text whose whole numbers all fit 64
bits never fails that way before evaluation. -/
theorem C64_numbers {s : JStr} {ts : List JStr} (h : Cut s ts) (hn : ∀ t ∈ ts, ¬ TooLarge t) (df : Option JStr) :
    parseExpression s df ≠ .failure .numberFormat := by
  intro he
  rcases C64_refusals h he with he | he | he | ⟨_, t, ht, hl⟩
  · cases he
  · cases he
  · cases he
  · exact hn t ht hl

/-- All four do occur. -/
example : parseExpression j!"(a) + (b)" none = .failure .invalidExpression := by krfl
example : parseExpression j!"a + (b)" none = .failure .emptyStack := by krfl
example : parseExpression j!"-(a)" none = .failure .classCast := by krfl
example : parseExpression j!"9223372036854775808 + 1" none = .failure .numberFormat := by krfl
example : TooLarge j!"9223372036854775808" := ⟨by decide +kernel, by decide +kernel⟩

/-- A refused text, whatever the data. -/
example (env : Env) (d : Data) : evaluate env j!"(a) + (b)" d none = .failure .invalidExpression :=
  (C64_all_data (by krfl) env d).1

/-! ## C63 "Data not found" blames a missing name -/

theorem parse_not_missing {s : JStr} {ts : List JStr} (h : Cut s ts) {df : Option JStr} :
    ∀ e, parseExpression s df = .failure e → e ≠ .dataNotFound := by
  rintro e he rfl
  rcases C64_refusals h he with he | he | he | ⟨he, _⟩ <;> cases he

/-- **C63.** If evaluating a condition fails because data were not found, the data have no value for one of the fields
in the text or for the default field. Only if the text contains a NOT or is nothing but one operand can the missing
name also be the text of a literal or a keyword (`NOT 'x'` asks for a field named `x`). -/
theorem C63_condition {s : JStr} {ts : List JStr} (h : Cut s ts) {env : Env} {d : Data} {df : Option JStr}
    (he : evaluate env s d df = .failure .dataNotFound) :
    (∃ f, ((f ∈ ts ∧ Classified f .field) ∨ df = some f) ∧ Absent d f) ∨
    ((j!"NOT" ∈ ts ∨ j!"not" ∈ ts ∨ SingleOperand ts) ∧ ∃ f, Mentions ts df f ∧ Absent d f) := by
  rcases evaluate_blame (fun t ht => (cut_texts h ht).2) he (parse_not_missing h) with ⟨f, hf, ha⟩ | ⟨hn, f, hf, ha⟩
  · rw [cut_unique h] at hf
    exact .inl ⟨f, hf, absent_of ha⟩
  · rw [cut_unique h] at hn hf
    refine .inr ⟨hn, f, ?_, absent_of ha⟩
    rcases hf with (hf | hf) | hf
    · exact .inl hf
    · exact .inr (.inl hf)
    · exact .inr (.inr hf)

/-- **C63**, arithmetic evaluator: a field named in the text has no value. -/
theorem C63_arithmetic {s : JStr} {ts : List JStr} (h : Cut s ts) {env : Env} {d : Data}
    (he : evaluateArith env s d = .failure .dataNotFound) : ∃ f ∈ ts, Classified f .field ∧ Absent d f := by
  obtain ⟨f, hf, ha⟩ := evaluateArith_blame (fun t ht => (cut_texts h ht).2) he (parse_not_missing h)
  rw [cut_unique h] at hf
  rcases hf with ⟨h1, h2⟩ | hf
  · exact ⟨f, h1, h2, absent_of ha⟩
  · cases hf

/-- **C63**, the way it is used: with a value for every field of the text and for the default field, no condition
without NOT fails for missing data. -/
theorem C63_complete_data {s : JStr} {ts : List JStr} (h : Cut s ts) (env : Env) {d : Data} {df : Option JStr}
    (h1 : j!"NOT" ∉ ts) (h2 : j!"not" ∉ ts) (h3 : ¬ SingleOperand ts)
    (hd : ∀ f, ((f ∈ ts ∧ Classified f .field) ∨ df = some f) → ¬ Absent d f) :
    evaluate env s d df ≠ .failure .dataNotFound := by
  intro he
  rcases C63_condition h he with ⟨f, hf, ha⟩ | ⟨hn | hn | hn, _⟩
  · exact hd f hf ha
  · exact h1 hn
  · exact h2 hn
  · exact h3 hn

/-- **C63**, complete data, arithmetic evaluator: no exception for NOT or single operands is needed. -/
theorem C63_complete_data_arith {s : JStr} {ts : List JStr} (h : Cut s ts) (env : Env) {d : Data}
    (hd : ∀ f ∈ ts, Classified f .field → ¬ Absent d f) : evaluateArith env s d ≠ .failure .dataNotFound := by
  intro he
  obtain ⟨f, h1, h2, ha⟩ := C63_arithmetic h he
  exact hd f h1 h2 ha

/-- `a > 5 + 3 AND b IN (1, 2)` is not grouped as written; whatever it does with `a` and `b`, it finds them. -/
example (env : Env) (n m : Int) :
    evaluate env j!"a > 5 + 3 AND b IN (1, 2)" [(j!"a", .int n), (j!"b", .int m)] none ≠ .failure .dataNotFound := by
  refine C63_complete_data (ts := [j!"a", j!">", j!"5", j!"+", j!"3", j!"AND", j!"b", j!"IN", j!"(", j!"1", j!",", j!"2", j!")"])
    (cut_of (by krfl)) env (by decide) (by decide) ?_ ?_
  · rintro ⟨k, xs, hx, h⟩
    cases k with
    | zero => have := congrArg List.length h; simp at this; omega
    | succ k => rw [List.replicate_succ] at h; cases h
  · rintro f (⟨hf, hc⟩ | hf) ha
    · have hab : f = j!"a" ∨ f = j!"b" := by
        have tb : ∀ k, (f, k) ∈ tokenTable → k ≠ .field → False := fun k hk hn => hn (classified_one (.table hk) hc)
        simp only [List.mem_cons, List.not_mem_nil, or_false] at hf
        have int : ∀ {ds : JStr}, IsDigits ds → f = ds → False := by
          rintro ds hd rfl; exact absurd (classified_one (.integer hd) hc) (by decide)
        rcases hf with h | h | h | h | h | h | h | h | h | h | h | h | h
        · exact .inl h
        · exact (tb (.cmp .gt) (by subst h; decide +kernel) (by decide)).elim
        · exact (int (by decide +kernel) h).elim
        · exact (tb (.arith .add) (by subst h; decide +kernel) (by decide)).elim
        · exact (int (by decide +kernel) h).elim
        · exact (tb .kAnd (by subst h; decide +kernel) (by decide)).elim
        · exact .inr h
        · exact (tb .kIn (by subst h; decide +kernel) (by decide)).elim
        · exact (tb .lparen (by subst h; decide +kernel) (by decide)).elim
        · exact (int (by decide +kernel) h).elim
        · exact (tb .comma (by subst h; decide +kernel) (by decide)).elim
        · exact (int (by decide +kernel) h).elim
        · exact (tb .rparen (by subst h; decide +kernel) (by decide)).elim
      rcases ha with ⟨ks, hk, hm⟩ | ⟨rfl, _⟩
      · have := (lookup_none hk [(j!"a", .int n), (j!"b", .int m)]).2 hm
        rcases hab with rfl | rfl <;> cases this
      · rcases hab with h | h <;> cases h
    · cases hf

/-- The exception for NOT is real: the text names no field, and data are missing. -/
example (env : Env) : evaluate env j!"NOT 'x'" [] none = .failure .dataNotFound := by
  rw [evaluate, show parseExpression j!"NOT 'x'" none = .success (.not_ (.unary .string (.str ['x']))) by krfl]
  rfl

end BoolParser
