import Verif.Lemmas.ParserNext
import Verif.Props.Compiled
/-!
# C77: the automaton shipped in the generated parser

Like the lexer, `BooleanExpressionParser` carries an automaton as a string. Its methods ask it at every choice the
grammar leaves open. `compiledParser` decodes the string; `Derives` says what a state of it can read; `GParse` is the
run of the generated methods with every choice answered by the automaton.
-/

namespace BoolParser
open Spec

theorem decoded_unique {a : ATN} (h : compiledParser = some a) : a = parserAtn := by
  rw [parser_decoded] at h
  exact (Option.some.inj h).symm

/-- **C77**, decoding: the string is a well-formed automaton. -/
theorem C77_decodes : ∃ a, compiledParser = some a := ⟨parserAtn, parser_decoded⟩

/-- **C77**, language: from the start of the rule `parse` (state 0) the automaton reads exactly the token sequences
`expression EOF` of the published grammar. -/
theorem C77_language {a : ATN} (h : compiledParser = some a) (ks : List TK) :
    Derives a none 0 (ks.map kindToken ++ [kindToken .eof]) ↔ Expression ks := by
  rw [decoded_unique h]
  exact parse_language ks

/-- **C77**, every text has at most one parse by the generated methods. -/
theorem C77_unambiguous {a : ATN} {ts : List Token} {t t' : Tree} (h : GParse a ts t) (h' : GParse a ts t') : t = t' :=
  (gexpr_unique h _ _ h').1

/-- **C77**, the generated methods: they complete a parse, without an error and up to the end of the input, exactly on
the token sequences of the grammar. -/
theorem C77_accepts {a : ATN} (h : compiledParser = some a) (ts : List Token) :
    (∃ t, GParse a ts t) ↔ Expression (ts.map Token.kind) := by
  rw [decoded_unique h]
  simp only [gparse_iff]
  exact ⟨fun ⟨_, ht⟩ => parse_sound ht, parse_complete⟩

/-- **C77**, the whole front end: cutting a text with the automaton of the generated lexer and parsing the tokens with
the generated methods over the automaton of the generated parser gives the tree that `parseExpression` hands to the
listener; where there is none, the text is a syntax error. -/
theorem C77_frontEnd {a : ATN} (h : compiledParser = some a) {s : JStr} {toks : List Token}
    (hs : compiledTokens s = some toks) (df : Option JStr) :
    (∀ t, GParse a toks t → parseExpression s df = .ofResult (listen df t)) ∧
    ((¬ ∃ t, GParse a toks t) → parseExpression s df = .syntaxError) := by
  rw [decoded_unique h]
  rw [C70_rules] at hs
  cases hs
  simp only [gparse_iff, parseExpression]
  constructor
  · intro t ht; rw [ht]
  · intro hn
    cases e : parseTokens (lex s) with
    | none => rfl
    | some t => exact absurd ⟨t, e⟩ hn

/-- **C77**, error recovery: the token sets that the recovery of syntax errors works with (`Model/Recovery.lean`) are
those of the automaton. `σ` are the states the active methods return to, `ctx` the frames the recovery model sees:
the parser resynchronises at the tokens that can be read at one of the return states, and it takes as missing only a
token before one that can follow in this very context. -/
theorem C77_recovery {a : ATN} (h : compiledParser = some a) {σ : List Nat} {ctx : List Frame} (hσ : Framed σ ctx)
    (k : TK) :
    (recoverySet ctx k = true ↔ ∃ s ∈ σ, NextTok a s k) ∧
    (.eof ∈ ctx → (lookAfter ctx k = true ↔ ∃ ks : List TK, Returns a σ ((k :: ks).map kindToken))) := by
  rw [decoded_unique h]
  exact ⟨recovery_next hσ k, look_next hσ k⟩

/-- **C77**, error recovery inside a condition: after `(` and `,` of a list (states 96 and 110), after `TO` (state 41)
and after `IN` (state 48). -/
theorem C77_recovery_inside {a : ATN} (h : compiledParser = some a) (k : TK) :
    (inListKind k = true ↔ NextTok a 96 k) ∧ (inListKind k = true ↔ NextTok a 110 k) ∧
    (isNumKind k = true ↔ NextTok a 41 k) ∧ (k = .lparen ↔ NextTok a 48 k) := by
  rw [decoded_unique h]
  exact ⟨list_next (.inl rfl) k, list_next (.inr rfl) k, upper_next k, by rw [← in_next k, beq_iff_eq]⟩

/-- The stack inside the right operand of a comparison inside a list: `a IN (b > …`. -/
example : Framed [58, 103, 54, 23] [.ops, .items, .ops, .eof] := by
  refine .cons ?_ (.cons ?_ (.cons ?_ (.cons ?_ .nil))) <;> decide

/-- `a > 5 + 3`: the comparison is taken first, so the tree is `(a > 5) + 3`. -/
example : GParse parserAtn [⟨.field, j!"a"⟩, ⟨.cmp .gt, j!">"⟩, ⟨.integer, j!"5"⟩, ⟨.arith .add, j!"+"⟩, ⟨.integer, j!"3"⟩]
    (.arith .add (.cmp .gt (.types ⟨.field, j!"a"⟩ false) (.types ⟨.integer, j!"5"⟩ false))
      (.types ⟨.integer, j!"3"⟩ false)) := by
  rw [gparse_iff]; krfl

/-- A list that is not closed has no parse. -/
example : ¬ ∃ t, GParse parserAtn [⟨.field, j!"a"⟩, ⟨.kIn, j!"IN"⟩, ⟨.lparen, j!"("⟩, ⟨.integer, j!"5"⟩] t := by
  simp only [gparse_iff]
  rintro ⟨t, h⟩
  have : parseTokens [⟨.field, j!"a"⟩, ⟨.kIn, j!"IN"⟩, ⟨.lparen, j!"("⟩, ⟨.integer, j!"5"⟩] = none := by krfl
  rw [this] at h; cases h

end BoolParser
