import Verif.Lemmas.NodeRange
import Verif.Lemmas.Checker
/-!
# Ranges

C51.
-/

namespace BoolParser
open Spec

/-! ## C51 Results stay inside their Java types -/

/-- **C51**, any text, any data: the result of an arithmetic evaluation is in range, if the data and today's date
are, and strings and collections have at most `Integer.MAX_VALUE` characters and elements. -/
theorem C51_results {env : Env} {s : JStr} {d : Data} {v : Value} (ht : DateInRange env.today)
    (hd : EntriesInRange d) (hl : ∀ n, parseExpression s none = .success n → LensFit env d n)
    (h : evaluateArith env s d = .success v) : InRange v := by
  unfold evaluateArith at h
  cases hp : parseExpression s none with
  | success n =>
    rw [hp, Outcome.andThen] at h
    cases he : evalArith env d n with
    | error x => rw [he] at h; cases h
    | ok w =>
      rw [he] at h
      injection h with h
      rw [← h]
      exact evalArith_range (Q := fun _ => True) ht hd n (parseExpression_ok hp fun _ _ _ _ => trivial) (hl n hp) w he
  | failure e => rw [hp] at h; cases h
  | syntaxError => rw [hp] at h; cases h

/-- **C51**, texts without LEN: nothing to assume about sizes. -/
theorem C51_without_len {env : Env} {s : JStr} {d : Data} {v : Value} (ht : DateInRange env.today)
    (hd : EntriesInRange d) (hl : ∀ t ∈ lex s, t.kind ≠ .fn .len) (h : evaluateArith env s d = .success v) :
    InRange v := by
  refine C51_results ht hd (fun n hn => noLen_fits (parseExpression_ok hn ?_)) h
  rintro t hm f hk rfl
  exact hl t hm hk

/-- **C51**, numbers spelled out. -/
theorem C51_numbers {env : Env} {s : JStr} {d : Data} (ht : DateInRange env.today)
    (hd : EntriesInRange d) (hl : ∀ t ∈ lex s, t.kind ≠ .fn .len) :
    (∀ n, evaluateArith env s d = .success (.int n) → InInt32 n) ∧
    (∀ n, evaluateArith env s d = .success (.long n) → InInt64 n) :=
  ⟨fun _ h => C51_without_len (v := .int _) ht hd hl h, fun _ h => C51_without_len (v := .long _) ht hd hl h⟩

/-- **C51**, literals: whatever the text, the literals in the node are in range. -/
theorem C51_literals {s : JStr} {df : Option JStr} {n : Node} (h : parseExpression s df = .success n) :
    NodeOk (fun _ => True) n :=
  parseExpression_ok h fun _ _ _ _ => trivial

/-- The largest `Integer` plus one is a `Long`; the largest `Long` plus one wraps around. -/
example (env : Env) (ht : DateInRange env.today) {v : Value}
    (h : evaluateArith env j!"a + 1 - b * 2147483648" [(['a'], .int 2147483647), (['b'], .long 9223372036854775807)]
      = .success v) : InRange v :=
  C51_without_len ht (by simp [EntriesInRange, InRange, InInt32, InInt64])
    (by
      have : (lex j!"a + 1 - b * 2147483648").all (fun t => t.kind != .fn .len) = true := by krfl
      intro t hm e
      have := List.all_eq_true.mp this t hm
      rw [e] at this; cases this) h

example (env : Env) : ∃ n, evaluateArith env j!"a - b" [(['a'], .int (-2147483648)), (['b'], .int 1)]
    = .success (.int n) ∧ InInt32 n := ⟨2147483647, by krfl, by decide⟩

example (env : Env) (d : Data) : LensFit env d (.func .len [.unary .string (.str j!"abc")]) := by
  intro vs h
  cases h with
  | here h =>
    have : vs = [.str j!"abc"] := by
      have : evalArithAll env d [.unary .string (.str j!"abc")] = .ok [.str j!"abc"] := rfl
      rw [this] at h; injection h with h; exact h.symm
    subst this
    refine ⟨by decide, ?_⟩
    intro s e
    injection e with e _
    injection e with e
    rw [← e]; decide
  | arg hm h =>
    simp only [List.mem_singleton] at hm
    subst hm
    cases h

end BoolParser
