import Verif.Lemmas.VerbatimListen
import Verif.Lemmas.LocaleTexts
import Verif.Lemmas.Recovery
/-!
# Parsing any text with texts and names (for C87, C101, C102)
-/

namespace BoolParser
open Spec

theorem vParse_some (ts : List Token) : ∃ t x n, vParse ts = some (t, x) ∧ rParse ts = some (t.erase, n) := by
  obtain ⟨⟨r, n⟩, hr⟩ := rParse_total ts
  have h := vParse_erase ts
  rw [hr] at h
  rcases e : vParse ts with _ | ⟨t, x⟩
  · rw [e] at h; cases h
  · rw [e] at h
    simp only [Option.map_some, Option.some.injEq] at h
    exact ⟨t, x, n, rfl, by rw [hr, h]⟩

theorem parseVerbatim_eq (s : JStr) : ∃ t x, vParse (lex s) = some (t, x) ∧
    (∀ loc df, parseVerbatim loc s df = (walkV loc df t ⟨[], none, 0⟩ >>= exitParseV x)) ∧
    (∀ df, parseAny s df = listenR df t.erase) := by
  obtain ⟨t, x, n, h1, h2⟩ := vParse_some (lex s)
  refine ⟨t, x, h1, fun loc df => ?_, fun df => ?_⟩
  · unfold parseVerbatim; rw [h1]
  · unfold parseAny; rw [h2]

/-- All names found: the same outcome as without the look-ups. -/
theorem parseVerbatim_rel {loc : Locale} {k : Prop} {s : JStr}
    (h : ∀ u ∈ lex s, u.kind.isName = true → KnownName loc k u.kind u.text) (df : Option JStr) :
    TRel (Stands k) (parseVerbatim loc s df) (parseAny s df) := by
  obtain ⟨t, x, h1, h2, h3⟩ := parseVerbatim_eq s
  rw [h2, h3]
  have ha := (vParse_all h1).1
  have hk : t.All (Quotes ((lex s).map Token.text)) (KnownName loc k) := by
    refine VTree.All.both (fun _ h _ => h) ?_ t ha ha
    rintro q y ⟨u, hu, rfl, rfl⟩ _
    refine ⟨fun f e => (h u hu (by rw [e]; rfl)).1 f e, fun hk o e => (h u hu ?_).2 hk o e⟩
    rw [e]; cases o <;> rfl
  exact (walkV_rel t hk (s := ⟨[], none, 0⟩) (s' := LState.init) ⟨.nil, rfl, rfl⟩).bind fun _ _ h => exitParseV_rel h

theorem parseVerbatim_common (s : JStr) (df : Option JStr) : TRel (Stands True) (parseVerbatim .common s df) (parseAny s df) :=
  parseVerbatim_rel (fun u hu hk => fine_common (tokens_table s u hu hk)) df

/-- A text that is read under a locale is read in the same way elsewhere. -/
theorem parseVerbatim_sound {loc : Locale} {s : JStr} {df : Option JStr} {n : NNode} (h : parseVerbatim loc s df = .ok n) :
    parseAny s df = .ok n.erase := by
  obtain ⟨t, x, h1, h2, h3⟩ := parseVerbatim_eq s
  have ha := (vParse_all h1).1
  rw [h2] at h
  obtain ⟨s1, h4, h5⟩ := bind_told h
  have hf := walkV_found t h4
  have hk : t.All (Quotes ((lex s).map Token.text)) (KnownName loc False) := by
    refine VTree.All.both (fun _ h _ => h) ?_ t ha hf
    rintro q y ⟨u, hu, rfl, rfl⟩ hy
    by_cases hn : u.kind.isName = true
    · exact fine_found (tokens_table s u hu hn) hy
    · refine ⟨fun f e => absurd (by rw [e]; rfl) hn, fun h => h.elim⟩
  have := (walkV_rel (df := df) t hk (s := ⟨[], none, 0⟩) (s' := LState.init) ⟨.nil, rfl, rfl⟩).bind
    fun _ _ h => exitParseV_rel (x := x) h
  rw [h] at this
  rw [h3, listenR]
  generalize (walkR df t.erase LState.init >>= exitParse) = r at this ⊢
  cases this with
  | ok h => rw [h.1]

theorem sameAnyIn {loc : Locale} {s : JStr} (h : ∀ u ∈ lex s, u.kind.isName = true → KnownName loc True u.kind u.text)
    (env : Env) (d : Data) (df : Option JStr) : evaluateAnyIn loc env s d df = evaluateAny env s d df ∧
      evaluateArithAnyIn loc env s d = evaluateArithAny env s d := by
  constructor
  · have h1 := parseVerbatim_rel h df
    unfold evaluateAnyIn evaluateAny
    generalize parseVerbatim loc s df = x at h1
    generalize parseAny s df = y at h1
    cases h1 with
    | error e m => rfl
    | ok h1 => simp only [ok_bind]; rw [evalBoolN_sure _ (h1.2 trivial), h1.1]
  · have h1 := parseVerbatim_rel h none
    unfold evaluateArithAnyIn evaluateArithAny
    generalize parseVerbatim loc s none = x at h1
    generalize parseAny s none = y at h1
    cases h1 with
    | error e m => rfl
    | ok h1 => simp only [ok_bind]; rw [h1.1]

end BoolParser
