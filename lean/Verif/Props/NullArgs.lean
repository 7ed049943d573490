import Verif.Lemmas.NullArgs
import Verif.Lemmas.RecoveryFail
import Verif.Props.Lexical
import Verif.Util.KRfl
/-!
# C91: null for the text or for the data

`none` stands for null. `evaluateAny`, `evaluateArithAny` and `parseAny` are the entry points for a text and data
that are there (`Model/Recovery`).
-/

namespace BoolParser

/-- With a text and data, nothing changes. -/
theorem C91_given (env : Env) (s : JStr) (d : Data) (df : Option JStr) :
    evaluateOpt env (some s) (some d) df = evaluateAny env s d df ∧
      evaluateArithOpt env (some s) (some d) = evaluateArithAny env s d ∧ parseOpt (some s) df = parseAny s df := by
  refine ⟨?_, ?_, rfl⟩
  · simp only [evaluateOpt, evaluateAny, parseOpt, evalBoolOpt_some]
  · simp only [evaluateArithOpt, evaluateArithAny, parseOpt, evalArithOpt_some]

/-- A null text fails with a `NullPointerException`, whatever the data and the default field. -/
theorem C91_null_text (env : Env) (d : Option Data) (df : Option JStr) :
    evaluateOpt env none d df = .error .nullPointer ∧ evaluateArithOpt env none d = .error .nullPointer ∧
      parseOpt none df = .error .nullPointer :=
  ⟨rfl, rfl, rfl⟩

/-- On null data every text either fails with a `NullPointerException`, or ends as it does on every data. -/
theorem C91_null_data (env : Env) (s : JStr) (df : Option JStr) :
    (evaluateOpt env (some s) none df = .error .nullPointer ∨
      ∀ d, evaluateAny env s d df = evaluateOpt env (some s) none df) ∧
    (evaluateArithOpt env (some s) none = .error .nullPointer ∨
      ∀ d, evaluateArithAny env s d = evaluateArithOpt env (some s) none) := by
  constructor
  · by_cases h : evaluateOpt env (some s) none df = .error .nullPointer
    · exact .inl h
    · refine .inr fun d => ?_
      have : NullOr (evaluateOpt env (some s) none df) (evaluateAny env s d df) :=
        (NullOr.same (parseAny s df)).bind fun n => evalBoolOpt_none env d n
      exact (this.out.resolve_left h).symm
  · by_cases h : evaluateArithOpt env (some s) none = .error .nullPointer
    · exact .inl h
    · refine .inr fun d => ?_
      have : NullOr (evaluateArithOpt env (some s) none) (evaluateArithAny env s d) :=
        (NullOr.same (parseAny s none)).bind fun n => evalArithOpt_none env d n
      exact (this.out.resolve_left h).symm

theorem parseOpt_calm (s : JStr) (df : Option JStr) : parseOpt (some s) df ≠ .error .dataNotFound := by
  intro he
  rcases parseAny_within (C49_kinds s) he with h | h | h | h | ⟨h, _⟩ <;> cases h

/-- Null data is not the same as empty data: what fails for a missing value on some data fails with a
`NullPointerException` on null data. -/
theorem C91_not_empty (env : Env) (s : JStr) (d : Data) (df : Option JStr) :
    (evaluateAny env s d df = .error .dataNotFound → evaluateOpt env (some s) none df = .error .nullPointer) ∧
    (evaluateArithAny env s d = .error .dataNotFound → evaluateArithOpt env (some s) none = .error .nullPointer) := by
  constructor
  · intro h
    obtain h' | h' := (C91_null_data env s df).1
    · exact h'
    · exfalso
      have e := h' d
      rw [h] at e
      rcases bind_err_inv e.symm with hp | ⟨n, _, hn⟩
      · exact parseOpt_calm _ _ hp
      · exact (calm_evalBoolOpt env n).out hn
  · intro h
    obtain h' | h' := (C91_null_data env s none).2
    · exact h'
    · exfalso
      have e := h' d
      rw [h] at e
      rcases bind_err_inv e.symm with hp | ⟨n, _, hn⟩
      · exact parseOpt_calm _ _ hp
      · exact (calm_evalArithOpt env n).out hn

/-- A caching parser keeps nothing for a null text, and fails with a `NullPointerException` for it unless it keeps the
node of a text whose key reads the same, which it then returns. -/
theorem C91_cached (ops : List CacheOpOpt) (df : Option JStr) :
    (cachedParseOpt (cacheAfterOpt ops) ⟨none, df⟩).2 = cacheAfterOpt ops ∧
      ((cachedParseOpt (cacheAfterOpt ops) ⟨none, df⟩).1 = .error .nullPointer ∨
        ∃ s df' n, CacheOpOpt.request ⟨some s, df'⟩ ∈ ops ∧
          s ++ ['_'] ++ df'.getD [] = j!"null_" ++ df.getD [] ∧ parseAny s df' = .ok n ∧
          (cachedParseOpt (cacheAfterOpt ops) ⟨none, df⟩).1 = .ok n) := by
  unfold cachedParseOpt
  cases h : (cacheAfterOpt ops).find (cacheKeyOpt ⟨none, df⟩) with
  | none => exact ⟨rfl, .inl rfl⟩
  | some n =>
    obtain ⟨s, df', a, b, c⟩ := fromTexts_after ops _ _ (find_entry h)
    exact ⟨rfl, .inr ⟨s, df', n, a, b, c, rfl⟩⟩

/-- The second case happens: once the text `null` has been parsed, the caching parser accepts a null text, which the
plain parser refuses. -/
theorem C91_cached_null :
    ∃ n, (cachedParseOpt (cacheAfterOpt [.request ⟨some j!"null", none⟩]) ⟨none, none⟩).1 = .ok n ∧
      parseOpt none none = .error .nullPointer :=
  ⟨.field (some j!"null"), by krfl, rfl⟩

/-! Cases. -/

variable (env : Env)

/-- A condition without fields. -/
example : evaluateOpt env (some j!"5 > 3") none none = .ok true := by krfl
example (d : Data) : evaluateAny env j!"5 > 3" d none = .ok true :=
  have h := (C91_null_data env j!"5 > 3" none).1
  (h.resolve_left (by
    rw [(by krfl : evaluateOpt env (some j!"5 > 3") none none = .ok true)]
    intro h; cases h) d).trans (by krfl)

/-- One with a field, also when the field is only compared with null. -/
example : evaluateOpt env (some j!"a = 1") none none = .error .nullPointer :=
  (C91_not_empty env j!"a = 1" [] none).1 (by krfl)
example : evaluateOpt env (some j!"a = null") none none = .error .nullPointer := by krfl
example : evaluateAny env j!"a = null" [] none = .ok true := by krfl

/-- A field that is not reached. -/
example : evaluateOpt env (some j!"5 > 3 OR a = 1") none none = .ok true := by krfl

/-- Arithmetic. -/
example : evaluateArithOpt env (some j!"5 + 3") none = .ok (.int 8) := by krfl
example : evaluateArithOpt env (some j!"a + 3") none = .error .nullPointer :=
  (C91_not_empty env j!"a + 3" [] none).2 (by krfl)

/-- Other requests before. -/
example : (cachedParseOpt (cacheAfterOpt [.request ⟨some j!"a = 1", none⟩, .request ⟨none, none⟩]) ⟨none, none⟩).1 =
    .error .nullPointer := by krfl

end BoolParser
