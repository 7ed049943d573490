import Verif.Props.Recovery
import Verif.Lemmas.Slips
/-!
# Slips of the pen

C78: texts that differ from a text of the grammar by isolated slips — a keyword or a parenthesis forgotten, a word too
many — are read as if the slips were not there, and one error is reported for each of them.
-/

namespace BoolParser
open Spec

/-- The tokens before a list: IN, CONTAINS_ALL, CONTAINS_ANY, function names. -/
def BeforeList (k : TK) : Prop := k = .kIn ∨ k ∈ arrayKinds ∨ ∃ f, k = .fn f

/-- The tokens an operand starts with, except `(`: names, literals, function names, NOT, `-`. -/
def OperandStart (k : TK) : Prop := k ∈ typesKinds ∨ (∃ f, k = .fn f) ∨ k = .kNot ∨ k = .arith .sub

/-- A token of kind `x` between tokens of kinds `p` and `q` is ignored. -/
inductive Ignored : TK → TK → TK → Prop
  /-- anything but TO between the lower bound of a range and TO -/
  | beforeTo {p x} : p ∈ numericKinds → x ≠ .kTo → Ignored p x .kTo
  /-- anything but IN between NOT and IN -/
  | beforeIn {x} : x ≠ .kIn → Ignored .kNot x .kIn
  /-- anything but `(` before a list -/
  | beforeList {p x} : BeforeList p → x ≠ .lparen → Ignored p x .lparen
  /-- behind a complete operand, before `,` or `)`: no operator, no TO, and behind a name nothing that continues it -/
  | afterOperand {p x q} : p ∈ operandKinds → q = .comma ∨ q = .rparen → x ∉ betweenKinds → x ≠ .comma → x ≠ .rparen →
      x ≠ .kTo → (p = .field → x ∉ continuesName) → Ignored p x q

/-- `Slips p n ts us`: behind a lexeme of kind `p` (`eof` at the beginning), the lexemes `ts` are the lexemes `us` with
`n` slips. -/
inductive Slips : TK → Nat → List JStr → List JStr → Prop
  | done {p} : Slips p 0 [] []
  | same {p n t k ts us} : Classified t k → Slips k n ts us → Slips p n (t :: ts) (t :: us)
  /-- TO forgotten -/
  | missingTo {p n to_ t k ts us} : p ∈ numericKinds → Classified to_ .kTo → Classified t k → k ∈ numericKinds →
      Slips k n ts us → Slips p (n + 1) (t :: ts) (to_ :: t :: us)
  /-- IN of NOT IN forgotten -/
  | missingIn {n in_ ts us} : Classified in_ .kIn → Slips .lparen n ts us →
      Slips .kNot (n + 1) (j!"(" :: ts) (in_ :: j!"(" :: us)
  /-- the `(` of a list forgotten -/
  | missingOpen {p n t k ts us} : BeforeList p → Classified t k → OperandStart k → ts.head? ≠ some j!"(" →
      Slips k n ts us → Slips p (n + 1) (t :: ts) (j!"(" :: t :: us)
  /-- a word too many -/
  | extra {p n x kx t k ts us} : Classified x kx → Classified t k → Ignored p kx k → Slips k n ts us →
      Slips p (n + 1) (x :: t :: ts) (t :: us)

theorem numeric_kind {k : TK} (h : k ∈ numericKinds) : isNumKind k = true := by
  simp only [numericKinds, List.mem_cons, List.not_mem_nil, or_false] at h
  rcases h with rfl | rfl <;> rfl

theorem beforeList_kind {k : TK} (h : BeforeList k) : opensList k = true := by
  rcases h with rfl | h | ⟨f, rfl⟩
  · rfl
  · simp only [arrayKinds, List.mem_cons, List.not_mem_nil, or_false] at h
    rcases h with rfl | rfl <;> rfl
  · rfl

theorem operandStart_kind {k : TK} (h : OperandStart k) : startsOperand k = true := by
  rcases h with h | ⟨f, rfl⟩ | rfl | rfl
  · simp only [typesKinds, List.mem_cons, List.not_mem_nil, or_false] at h
    rcases h with rfl | rfl | rfl | rfl | rfl | rfl | rfl | rfl | rfl <;> rfl
  · rfl
  · rfl
  · rfl

theorem between_kind {k : TK} (h : k ∉ betweenKinds) : isBinKind k = false := by
  cases k with
  | arith op => cases op <;> exact absurd (by simp [betweenKinds]) h
  | cmp op => cases op <;> exact absurd (by simp [betweenKinds]) h
  | kAnd => exact absurd (by simp [betweenKinds]) h
  | kOr => exact absurd (by simp [betweenKinds]) h
  | _ => rfl

theorem continues_kind {k : TK} (h : k ∉ continuesName) : continues k = false := by
  cases k <;> first | rfl | exact absurd (by simp [continuesName]) h

theorem ignored_kind {p x q : TK} (h : Ignored p x q) (hx : x ≠ .eof) : strayAt p x q = true := by
  cases h with
  | beforeTo h1 h2 => simp [strayAt, numeric_kind h1, h2]
  | beforeIn h1 => simp [strayAt, h1]
  | beforeList h1 h2 => simp [strayAt, beforeList_kind h1, h2]
  | afterOperand h1 h2 h3 h4 h5 h6 h7 =>
    have hq : (q == .comma || q == .rparen) = true := by rcases h2 with rfl | rfl <;> rfl
    have hp : (isLitKind p || p == .rparen || (p == .field && !continues x)) = true := by
      simp only [operandKinds, typesKinds, List.mem_cons, List.not_mem_nil, or_false] at h1
      rcases h1 with rfl | rfl | rfl | rfl | rfl | rfl | rfl | rfl | rfl | rfl <;>
        first | rfl | simp [continues_kind (h7 rfl)]
    simp [strayAt, hq, hp, between_kind h3, h4, h5, h6, hx]

theorem lax_of {p : TK} {n : Nat} {ts us : List JStr} (h : Slips p n ts us) : ∀ {a b : List Token},
    (∀ t ∈ a, ValidTok t) → (∀ t ∈ b, ValidTok t) → a.map Token.text = ts → b.map Token.text = us → Lax p n a b := by
  have eqv : ∀ {t u : Token}, ValidTok t → ValidTok u → t.text = u.text → t = u := by
    intro t u ht hu h
    have := classified_one (valid_classified ht) (h ▸ valid_classified hu)
    cases t; cases u; simp_all
  have kd : ∀ {t : Token} {k : TK}, ValidTok t → Classified t.text k → t.kind = k :=
    fun ht h => classified_one (valid_classified ht) h
  have noEof : ∀ {t : JStr} {k : TK}, Classified t k → k ≠ .eof := by
    intro t k h hk
    subst hk
    cases h with
    | table hm => simp [tokenTable] at hm
  induction h with
  | done =>
    intro a b _ _ ha hb
    obtain rfl := List.map_eq_nil_iff.1 ha
    obtain rfl := List.map_eq_nil_iff.1 hb
    exact .nil
  | same hc h ih =>
    intro a b va vb ha hb
    obtain ⟨t, a, rfl, h1, h2⟩ := List.map_eq_cons_iff.1 ha
    obtain ⟨u, b, rfl, h3, h4⟩ := List.map_eq_cons_iff.1 hb
    obtain rfl := eqv (va t (by simp)) (vb u (by simp)) (h1.trans h3.symm)
    rw [← h1] at hc
    have := kd (va t (by simp)) hc
    exact .keep (this ▸ ih (fun x hx => va x (by simp [hx])) (fun x hx => vb x (by simp [hx])) h2 h4)
  | missingTo hp hto hc hk h ih =>
    intro a b va vb ha hb
    obtain ⟨t, a, rfl, h1, h2⟩ := List.map_eq_cons_iff.1 ha
    obtain ⟨w, b, rfl, h5, h6⟩ := List.map_eq_cons_iff.1 hb
    obtain ⟨u, b, rfl, h3, h4⟩ := List.map_eq_cons_iff.1 h6
    obtain rfl := eqv (va t (by simp)) (vb u (by simp)) (h1.trans h3.symm)
    rw [← h1] at hc
    rw [← h5] at hto
    have e := kd (va t (by simp)) hc
    exact .noTo (numeric_kind hp) (kd (vb w (by simp)) hto) (e ▸ numeric_kind hk)
      (e ▸ ih (fun x hx => va x (by simp [hx])) (fun x hx => vb x (by simp [hx])) h2 h4)
  | missingIn hin h ih =>
    intro a b va vb ha hb
    obtain ⟨t, a, rfl, h1, h2⟩ := List.map_eq_cons_iff.1 ha
    obtain ⟨w, b, rfl, h5, h6⟩ := List.map_eq_cons_iff.1 hb
    obtain ⟨u, b, rfl, h3, h4⟩ := List.map_eq_cons_iff.1 h6
    obtain rfl := eqv (va t (by simp)) (vb u (by simp)) (h1.trans h3.symm)
    rw [← h5] at hin
    refine .noIn (kd (vb w (by simp)) hin) (kd (va t (by simp)) (h1 ▸ valid_classified valid_lparen))
      (ih (fun x hx => va x (by simp [hx])) (fun x hx => vb x (by simp [hx])) h2 h4)
  | missingOpen hp hc hk hn h ih =>
    intro a b va vb ha hb
    obtain ⟨t, a, rfl, h1, h2⟩ := List.map_eq_cons_iff.1 ha
    obtain ⟨w, b, rfl, h5, h6⟩ := List.map_eq_cons_iff.1 hb
    obtain ⟨u, b, rfl, h3, h4⟩ := List.map_eq_cons_iff.1 h6
    obtain rfl := eqv (va t (by simp)) (vb u (by simp)) (h1.trans h3.symm)
    rw [← h1] at hc
    have e := kd (va t (by simp)) hc
    refine .noOpen (beforeList_kind hp) (kd (vb w (by simp)) (h5 ▸ valid_classified valid_lparen))
      (e ▸ operandStart_kind hk) ?_ (e ▸ ih (fun x hx => va x (by simp [hx])) (fun x hx => vb x (by simp [hx])) h2 h4)
    cases a with
    | nil => show TK.eof ≠ .lparen; decide
    | cons v a =>
      intro hv
      have hv : v.kind = .lparen := hv
      have := valid_classified (va v (by simp))
      rw [hv] at this
      rw [← h2] at hn
      exact hn (by simp [lparen_text this])
  | extra hx hc hi h ih =>
    intro a b va vb ha hb
    obtain ⟨w, a, rfl, h5, h6⟩ := List.map_eq_cons_iff.1 ha
    obtain ⟨t, a, rfl, h1, h2⟩ := List.map_eq_cons_iff.1 h6
    obtain ⟨u, b, rfl, h3, h4⟩ := List.map_eq_cons_iff.1 hb
    obtain rfl := eqv (va t (by simp)) (vb u (by simp)) (h1.trans h3.symm)
    rw [← h1] at hc
    rw [← h5] at hx
    have e := kd (va t (by simp)) hc
    have e' := kd (va w (by simp)) hx
    exact .stray (by rw [e, e']; exact ignored_kind hi (noEof hx))
      (e ▸ ih (fun x hx => va x (by simp [hx])) (fun x hx => vb x (by simp [hx])) h2 h4)

/-- **C78.** A text that is a text of the grammar (`w`) but for `n` slips is parsed as if the slips were not there, and
`n` errors are reported. (Signs in `w` have to stand before literals.) -/
theorem C78_slips {s w : JStr} {ts us : List JStr} {n : Nat} (h : Cut s ts) (hw : Cut w us) (hn : Slips .eof n ts us)
    (hp : parseExpression w none ≠ .syntaxError) (hs : SignsOnLiterals us) :
    (∀ df, .ofResult (parseAny s df) = parseExpression w df) ∧ reportedErrors s = n := by
  have va : ∀ t ∈ lex s, ValidTok t := lex_valid _ s (Nat.le_refl _)
  have vb : ∀ t ∈ lex w, ValidTok t := lex_valid _ w (Nat.le_refl _)
  have hl := lax_of hn va vb (cut_unique h) (cut_unique hw)
  cases e : parseTokens (lex w) with
  | none => rw [parseExpression, e] at hp; exact absurd rfl hp
  | some t =>
    have hsg : signs true (lex w) = true :=
      signs_of (lex w) [] true (by simpa using vb) (by simpa [cut_unique hw] using hs) (fun _ => .inl rfl)
    have := rParse_slips e hsg hl
    refine ⟨fun df => ?_, by rw [reportedErrors, this]⟩
    rw [parseAny, this, parseExpression, e]
    show Outcome.ofResult (listenR df t.up) = _
    rw [up_listen]

/-- **C78** for the evaluators. -/
theorem C78_evaluate {s w : JStr} {ts us : List JStr} {n : Nat} (h : Cut s ts) (hw : Cut w us) (hn : Slips .eof n ts us)
    (hp : parseExpression w none ≠ .syntaxError) (hs : SignsOnLiterals us) (env : Env) (d : Data) :
    (∀ df, .ofResult (evaluateAny env s d df) = evaluate env w d df) ∧
    .ofResult (evaluateArithAny env s d) = evaluateArith env w d := by
  have key := (C78_slips h hw hn hp hs).1
  refine ⟨fun df => ?_, ?_⟩
  · rw [evaluate, ← key, andThen_ofResult]; rfl
  · rw [evaluateArith, ← key, andThen_ofResult]; rfl

/-- Four slips. -/
example (env : Env) (d : Data) :
    .ofResult (evaluateAny env j!"a 1 5 AND (b NOT (2, c) x) OR MIN 4, 6) > d" d none) =
      evaluate env j!"a 1 TO 5 AND (b NOT IN (2, c)) OR MIN(4, 6) > d" d none ∧
    reportedErrors j!"a 1 5 AND (b NOT (2, c) x) OR MIN 4, 6) > d" = 4 := by
  have h : Cut j!"a 1 5 AND (b NOT (2, c) x) OR MIN 4, 6) > d"
      [j!"a", j!"1", j!"5", j!"AND", j!"(", j!"b", j!"NOT", j!"(", j!"2", j!",", j!"c", j!")", j!"x", j!")", j!"OR",
       j!"MIN", j!"4", j!",", j!"6", j!")", j!">", j!"d"] := cut_of (by krfl)
  have hw : Cut j!"a 1 TO 5 AND (b NOT IN (2, c)) OR MIN(4, 6) > d"
      [j!"a", j!"1", j!"TO", j!"5", j!"AND", j!"(", j!"b", j!"NOT", j!"IN", j!"(", j!"2", j!",", j!"c", j!")", j!")",
       j!"OR", j!"MIN", j!"(", j!"4", j!",", j!"6", j!")", j!">", j!"d"] := cut_of (by krfl)
  have hn : Slips .eof 4
      [j!"a", j!"1", j!"5", j!"AND", j!"(", j!"b", j!"NOT", j!"(", j!"2", j!",", j!"c", j!")", j!"x", j!")", j!"OR",
       j!"MIN", j!"4", j!",", j!"6", j!")", j!">", j!"d"]
      [j!"a", j!"1", j!"TO", j!"5", j!"AND", j!"(", j!"b", j!"NOT", j!"IN", j!"(", j!"2", j!",", j!"c", j!")", j!")",
       j!"OR", j!"MIN", j!"(", j!"4", j!",", j!"6", j!")", j!">", j!"d"] := by
    refine .same (k := .field) (classified_of (by krfl)) (.same (k := .integer) (classified_of (by krfl))
      (.missingTo (k := .integer) (by decide) (classified_of (by krfl)) (classified_of (by krfl)) (by decide) ?_))
    refine .same (k := .kAnd) (classified_of (by krfl)) (.same (k := .lparen) (classified_of (by krfl))
      (.same (k := .field) (classified_of (by krfl)) (.same (k := .kNot) (classified_of (by krfl))
      (.missingIn (classified_of (by krfl)) ?_))))
    refine .same (k := .integer) (classified_of (by krfl)) (.same (k := .comma) (classified_of (by krfl))
      (.same (k := .field) (classified_of (by krfl)) (.same (k := .rparen) (classified_of (by krfl))
      (.extra (k := .rparen) (kx := .field) (classified_of (by krfl)) (classified_of (by krfl))
        (.afterOperand (by decide) (.inr rfl) (by decide) nofun nofun nofun nofun) ?_))))
    refine .same (k := .kOr) (classified_of (by krfl)) (.same (k := .fn .min) (classified_of (by krfl))
      (.missingOpen (k := .integer) (.inr (.inr ⟨_, rfl⟩)) (classified_of (by krfl)) (.inl (by decide)) (by decide) ?_))
    refine .same (k := .comma) (classified_of (by krfl)) (.same (k := .integer) (classified_of (by krfl))
      (.same (k := .rparen) (classified_of (by krfl)) (.same (k := .cmp .gt) (classified_of (by krfl))
      (.same (k := .field) (classified_of (by krfl)) .done))))
  have hp : parseExpression j!"a 1 TO 5 AND (b NOT IN (2, c)) OR MIN(4, 6) > d" none ≠ .syntaxError :=
    accepted_of (by krfl)
  exact ⟨(C78_evaluate h hw hn hp (literal_signs (by decide)) env d).1 none,
    (C78_slips h hw hn hp (literal_signs (by decide))).2⟩

/-- Not every slip is repaired: a forgotten comma loses elements, a forgotten upper bound is fatal, and behind a sign
before a name or a parenthesis nothing is repaired. -/
example : reportedErrors j!"a IN (1 2)" = 1 ∧ parseAny j!"a IN (1 2)" none = parseAny j!"a IN (1)" none :=
  ⟨by krfl, by krfl⟩
example : parseAny j!"a 1" none = .error .nullPointer := by krfl
example : (parseAny j!"2 > -a 1 5" none).toOption = none := by krfl

end BoolParser
