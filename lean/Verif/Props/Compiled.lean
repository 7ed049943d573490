import Verif.Lemmas.LexerCompiled
import Verif.Props.Lexical
/-!
# C70: the automaton shipped in the generated lexer

`BooleanExpressionLexer` holds no code for the lexical rules but the automaton ANTLR compiled from them, as a string.
`compiledTokens` decodes that string and runs the automaton the way the ANTLR runtime does.
-/

namespace BoolParser
open Spec

/-- **C70.** On every text, running the automaton stored in the generated lexer cuts the text as the lexical
specification says: skip white space, take the longest lexeme, drop what is not recognised. In particular the decoding
succeeds and the simulation ends on every text. -/
theorem C70_cut (s : JStr) (ts : List JStr) :
    Cut s ts ↔ ∃ toks, compiledTokens s = some toks ∧ toks.map Token.text = ts := by
  simp only [compiledTokens, compiledLexer_eq, Option.map_some, Option.some.injEq, exists_eq_left']
  exact C49_cut s ts

/-- **C70**, kinds: every token it yields is a lexeme of the kind its token type stands for. -/
theorem C70_kinds {s : JStr} {toks : List Token} (h : compiledTokens s = some toks) :
    ∀ t ∈ toks, Classified t.text t.kind := by
  simp only [compiledTokens, compiledLexer_eq, Option.map_some, Option.some.injEq] at h
  subst h
  exact C49_kinds s

theorem lexGo_texts (f : Nat) : ∀ s : JStr, s.length ≤ f → ((lexGo f s).map LexItem.text).flatten = s := by
  induction f with
  | zero =>
    intro s hs
    have : s = [] := List.eq_nil_of_length_eq_zero (Nat.le_zero.mp hs)
    subst this; rfl
  | succ f ih =>
    intro s hs
    cases s with
    | nil => rfl
    | cons c r =>
      have hp : 0 < (lexStep (c :: r)).2 ∧ (lexStep (c :: r)).1.text = (c :: r).take (lexStep (c :: r)).2 := by
        simp only [lexStep]
        cases hb : bestMatch (c :: r) lexRules with
        | none =>
          refine ⟨?_, rfl⟩
          simp only [junkLen]
          split
          · omega
          · split <;> omega
        | some p =>
          obtain ⟨k, n⟩ := p
          have := (bestMatch_sane hb).1
          cases k <;> exact ⟨this, rfl⟩
      have hl : ((c :: r).drop (lexStep (c :: r)).2).length ≤ f := by
        rw [List.length_drop]; simp at hs ⊢; omega
      rw [lexGo, List.map_cons, List.flatten_cons, hp.2, ih _ hl, List.take_append_drop]

/-- **C70**, nothing is lost: tokens, skipped white space and dropped characters together are the text. -/
theorem C70_pieces (s : JStr) :
    ∃ items, compiledLexer s = some items ∧ (items.map LexItem.text).flatten = s :=
  ⟨lexItems s, compiledLexer_eq s, lexGo_texts _ s (Nat.le_refl _)⟩

/-- **C70**, white space: a piece is skipped silently exactly if it is white space. -/
theorem C70_skipped {s : JStr} {items : List LexItem} (h : compiledLexer s = some items) {x : JStr}
    (hx : LexItem.ws x ∈ items) : x ≠ [] ∧ x.all isBlank = true := by
  rw [compiledLexer_eq] at h
  injection h with h
  subst h
  have key : ∀ f (s : JStr), LexItem.ws x ∈ lexGo f s → x ≠ [] ∧ x.all isBlank = true := by
    intro f
    induction f with
    | zero => intro s h; simp [lexGo] at h
    | succ f ih =>
      intro s h
      cases s with
      | nil => simp [lexGo] at h
      | cons c r =>
        simp only [lexGo, List.mem_cons] at h
        rcases h with h | h
        · simp only [lexStep] at h
          cases hb : bestMatch (c :: r) lexRules with
          | none => rw [hb] at h; cases h
          | some p =>
            obtain ⟨k, n⟩ := p
            rw [hb] at h
            cases k with
            | tok k => cases h
            | ws =>
              injection h with h
              obtain ⟨pre, m, post, e, h1, _⟩ := bestMatch_some hb
              have hm : m = mWs := ws_rule (.ws, m) (by rw [e]; simp) rfl
              subst hm
              have hn := bestMatch_sane hb
              have hs := lexRules_shrinks (.ws, mWs) (by simp [lexRules]) _ _ h1
              have hf : mWs ((c :: r).take n) = some ((c :: r).take n).length := by
                rw [List.length_take, Nat.min_eq_left hn.2]; exact hs
              obtain ⟨g1, g2⟩ := nz_iff.mp hf
              rw [h]
              refine ⟨g1, ?_⟩
              rw [List.all_eq_true] at g2 ⊢
              intro d hd
              rw [isBlank_ws]; exact g2 d hd
        · exact ih _ h
  exact key _ s hx

/-- **C70**, the model: the tokens are those of the rules all other theorems are about. -/
theorem C70_rules (s : JStr) : compiledTokens s = some (lex s) := by
  simp only [compiledTokens, compiledLexer_eq, Option.map_some, lex]

/-- The automaton at work: the longest match wins over the keyword, `!` alone is dropped with the character after it,
an open quote swallows the rest. -/
example : compiledTokens j!"INx>=1.2! 7 'a" = some [⟨.field, j!"INx"⟩, ⟨.cmp .ge, j!">="⟩, ⟨.decimal, j!"1.2"⟩,
    ⟨.integer, j!"7"⟩] := by
  rw [C70_rules]; krfl

example : compiledLexer j!"a \t!" = some [.tok ⟨.field, j!"a"⟩, .ws j!" \t", .junk j!"!"] := by
  rw [compiledLexer_eq]; krfl

end BoolParser
