import Verif.Lemmas.Outside
/-!
# Texts with arithmetic on top (C53)
-/

namespace BoolParser
open Spec

/-- **C53**, which texts: a text that outside parentheses has an arithmetic operator, or begins with a minus, and has no
AND or OR is refused, or answered no whatever the data. -/
theorem C53_calculation {s : JStr} {ts : List JStr} (h : Cut s ts) (hc : Calculation ts) (df : Option JStr)
    (ha : parseExpression s df ≠ .syntaxError) :
    (∃ e, parseExpression s df = .failure e) ∨ ∀ env d, evaluate env s d df = .success false := by
  cases hp : parseTokens (lex s) with
  | none => exact absurd (by rw [parseExpression, hp]) ha
  | some t =>
    have hk := parseTokens_kinds hp
    have hok := parseTokens_shaped hp
    have ho := (outside_tree hok []).1
    rw [List.append_nil, hk] at ho
    obtain ⟨os, h1, h2, h3⟩ := outside_toks (lex_each s) 0
    rw [cut_unique h] at h2
    rw [show (lex s).map Token.kind = kindsOf (lex s) from rfl, ho, outsideK, List.append_nil] at h3
    obtain ⟨hcn, hsg⟩ := hc
    rw [← h2] at hcn hsg
    have arithK : ∀ {u : Token}, Classified u.text u.kind →
        (isArithK u.kind = true ↔ u.text ∈ arithLexemes) := fun hu =>
      kind_in (p := isArithK) (by decide +kernel) (by decide +kernel) (by decide) hu
    have subK : ∀ {u : Token}, Classified u.text u.kind → (u.kind = .arith .sub ↔ u.text = j!"-") := fun hu => by
      have := kind_in (p := fun k => k == .arith .sub) (xs := [j!"-"]) (by decide +kernel) (by decide +kernel) (by decide) hu
      simpa using this
    have connK : ∀ {u : Token}, Classified u.text u.kind →
        ((match u.kind with | .kAnd => true | .kOr => true | _ => false) = true ↔ u.text ∈ connectiveLexemes) := fun hu =>
      kind_in (p := fun k => match k with | .kAnd => true | .kOr => true | _ => false) (by decide +kernel) (by decide +kernel)
        (by decide) hu
    have notK : ∀ {u : Token}, Classified u.text u.kind → ((u.kind == .kNot) = true ↔ u.text ∈ [j!"NOT", j!"not"]) := fun hu =>
      kind_in (p := fun k => k == .kNot) (by decide +kernel) (by decide +kernel) (by decide) hu
    have opK : ∀ (us : List Token) (b : Bool), (∀ u ∈ us, Classified u.text u.kind) →
        hasOperator b (us.map Token.text) = hasOperatorK b (us.map Token.kind) := by
      intro us
      induction us with
      | nil => intro b _; rfl
      | cons u us ih =>
        intro b hu
        have h0 := hu u (by simp)
        rw [List.map_cons, List.map_cons, hasOperator, hasOperatorK]
        have e : decide (u.text ∈ infixLexemes ∨ u.text = j!"NOT" ∨ u.text = j!"not") = (isBinKind u.kind || u.kind == .kNot) := by
          have h4 := infix_kind h0
          have h5 := notK h0
          simp only [List.mem_cons, List.not_mem_nil, or_false] at h5
          rw [Bool.eq_iff_iff, decide_eq_true_iff, Bool.or_eq_true_iff, h5]
          have : isBinKind u.kind = true ↔ u.text ∈ infixLexemes := by
            cases h6 : isBinKind u.kind <;> rw [h6] at h4 <;> simp at h4 <;> simp [h4]
          rw [this]
        simp only [← arithK h0, subK h0, e, ih _ (fun v hv => hu v (by simp [hv]))]
    have hcomp : t.computes = true := by
      refine computes_of hok ?_ ?_
      · intro k hk
        rw [← h3] at hk
        obtain ⟨v, hv, rfl⟩ := List.mem_map.1 hk
        have := hcn v.text (List.mem_map_of_mem hv)
        rw [← connK (h1 v hv)] at this
        constructor <;> (intro e; rw [e] at this; exact this rfl)
      · rcases hsg with hsg | hsg
        · left
          rw [← h3, ← opK os true h1]
          exact hsg
        · right
          rw [← h3]
          rw [← cut_unique h] at hsg h2
          cases hx : lex s with
          | nil => rw [hx] at hsg; cases hsg
          | cons u us =>
            rw [hx] at hsg
            injection hsg with hsg
            have hk := (subK (lex_each s u (by rw [hx]; simp))).2 hsg
            rw [outsideK, List.append_nil] at ho
            rw [h3, ← ho, hx, kindsOf, List.map_cons, hk]
            rfl
    have he : parseExpression s df = .ofResult (listen df t) := by rw [parseExpression, hp]
    cases hl : listen df t with
    | error e => exact .inl ⟨e, by rw [he, hl]; rfl⟩
    | ok n =>
      right
      intro env d
      rw [evaluate, he, hl]
      show Outcome.ofResult (evalBool env d n) = _
      rw [listen_computes hcomp hl]
      rfl

/-- The comparison of `a` with a sum that users mean is never made. -/
example (env : Env) (d : Data) : evaluate env j!"a >= -b + 3" d none = .success false := by
  have hp : parseExpression j!"a >= -b + 3" none = .success (.arith .add
      (.cmp (.field (some ['a'])) (.neg (.field (some ['b']))) .ge .string) (.unary .integer (.int 3))) := by krfl
  rcases C53_calculation (s := j!"a >= -b + 3") (ts := [j!"a", j!">=", j!"-", j!"b", j!"+", j!"3"]) (cut_of (by krfl))
    ⟨by decide, .inl (by decide)⟩ none (by rw [hp]; exact nofun) with ⟨e, h⟩ | h
  · rw [hp] at h; cases h
  · exact h env d

/-- Nor the comparison of `-a` with 5. -/
example : Calculation [j!"-", j!"a", j!"=", j!"5"] := ⟨by decide, .inr rfl⟩

/-- In parentheses the sum is compared. -/
example : ¬ Calculation [j!"a", j!">=", j!"(", j!"b", j!"+", j!"3", j!")"] := by
  rintro ⟨-, h | h⟩
  · exact absurd h (by decide)
  · cases h

/-- A sign after the comparison does no harm. -/
example : ¬ Calculation [j!"b", j!"=", j!"-", j!"a"] := by
  rintro ⟨-, h | h⟩
  · exact absurd h (by decide)
  · cases h

end BoolParser
