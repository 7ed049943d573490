import Verif.Lemmas.VerbatimSays
import Verif.Lemmas.RefusalSame
/-!
# Which failures of the parser carry a message (for C101)
-/

namespace BoolParser
open Spec

/-- As `SaysV`, about any piece. -/
abbrev SaysAny {α : Type} (r : Told α) : Prop := SaysV (fun _ => True) r

/-- Any text: the failure of the parser, and what it quotes. -/
theorem parseTold_quotes (s : JStr) (df : Option JStr) : SaysV (Quotes ((lex s).map Token.text)) (parseTold s df) := by
  unfold parseTold
  obtain ⟨t, x, h1, h2, _⟩ := parseVerbatim_eq s
  rw [h2]
  have ha := vParse_all h1
  have hs := (saysV_bind (walkV_says (loc := .common) (df := df) t ha.1 ⟨[], none, 0⟩) fun _ => exitParseV_says ha.2 _ :
    SaysV _ (walkV .common df t ⟨[], none, 0⟩ >>= exitParseV x))
  intro f hf
  generalize (walkV .common df t ⟨[], none, 0⟩ >>= exitParseV x) = r at hs hf
  cases r with
  | ok a => cases hf
  | error e => exact hs f (congrArg Except.error (Except.error.inj hf))

theorem parseTold_says (s : JStr) (df : Option JStr) : SaysAny (parseTold s df) := by
  intro f hf
  rcases parseTold_quotes s df f hf with ⟨e, m, y, h1, _, h3⟩ | h
  · exact .inl ⟨e, m, y, h1, trivial, h3⟩
  · exact .inr h

theorem parse_honest (s : JStr) (df : Option JStr) : HonestX (parseTold s df) :=
  ⟨fun f hf => by
    rcases parseTold_says s df f hf with ⟨e, m, _, h, _⟩ | ⟨h1, h2⟩
    · rw [e, h]; exact ⟨fun _ => by decide, fun _ => rfl⟩
    · rw [h2]; exact ⟨fun h => absurd h (by decide), fun h => absurd h h1⟩⟩

end BoolParser
