import Verif.Lemmas.VerbatimNames
import Verif.Lemmas.VerbatimTold
import Verif.Lemmas.LocaleTexts
/-!
# What the parser says under any default locale (for C87)
-/

namespace BoolParser
open Spec

variable {s : JStr}

/-- As `parseTold_quotes`, under any default locale. -/
theorem parseVerbatim_quotes (loc : Locale) (s : JStr) (df : Option JStr) :
    SaysV (Quotes ((lex s).map Token.text)) (parseVerbatim loc s df) := by
  obtain ⟨t, x, h1, h2, _⟩ := parseVerbatim_eq s
  rw [h2]
  have ha := vParse_all h1
  exact saysV_bind (walkV_says t ha.1 ⟨[], none, 0⟩) fun _ => exitParseV_says ha.2 _

theorem mapTok_func {φ : Token → Token} {t : Tree} {f : FuncType} {es : List Tree}
    (h : t.mapTok φ = .func f es) : ∃ es', t = .func f es' ∧ Tree.mapToks φ es' = es := by
  cases t <;> simp only [Tree.mapTok] at h <;> first | (injection h with h1 h2; subst h1; exact ⟨_, rfl, h2⟩) | cases h

theorem mapToks_types {φ : Token → Token} : (es' es : List Tree) → Tree.mapToks φ es' = es → (∀ e ∈ es, e.isTypes = true) →
    ∀ e ∈ es', e.isTypes = true
  | [], _, _, _ => by intro e he; cases he
  | t :: ts, _, h, ha => by
    subst h
    intro e he
    rcases List.mem_cons.1 he with rfl | he
    · have := ha _ (List.mem_cons_self ..)
      cases e <;> first | rfl | (simp only [Tree.mapTok, Tree.isTypes] at this; cases this)
    · exact mapToks_types ts _ rfl (fun e h => ha e (List.mem_cons_of_mem _ h)) e he

theorem trees_types : (args : List Arith) → (∀ a ∈ args, a.isAtom = true) → ∀ e ∈ Arith.trees args, e.isTypes = true
  | [], _ => by intro e he; rw [Arith.trees] at he; cases he
  | a :: as, ha => by
    intro e he
    rw [Arith.trees] at he
    rcases List.mem_cons.1 he with rfl | he
    · rw [isAtom_isTypes]; exact ha _ (List.mem_cons_self ..)
    · exact trees_types as (fun a h => ha a (List.mem_cons_of_mem _ h)) e he

/-- Items without structure only count. -/
theorem walkAllV_types (loc : Locale) (df : Option JStr) : (es : List Tree) → (∀ e ∈ es, e.isTypes = true) →
    (ks : List Token) → (st : NState) → ∃ st', walkAllV loc df (Tree.decorAll es ks) st = .ok st'
  | [], _, _, st => ⟨st, by rw [Tree.decorAll, walkAllV]⟩
  | t :: ts, h, ks, st => by
    have ht := h t (List.mem_cons_self ..)
    cases t <;> first | cases ht | skip
    rw [Tree.decorAll, Tree.decor, walkAllV, walkV]
    exact walkAllV_types loc df ts (fun e he => h e (List.mem_cons_of_mem _ he)) _ _

/-- The message about a call whose name is not found. -/
theorem call_says {f : FuncType} {args : List Arith} {w : JStr} {ts : List JStr} (h : WritesArith s (.call f args))
    (ha : ∀ a ∈ args, a.isAtom = true) (hc : Cut s (w :: ts)) (hw : w ∈ dottedFunctions) (df : Option JStr) :
    parseVerbatim .turkish s df =
      .error ⟨.invalidExpression, some (j!"Error parsing expression for the string " ++ (w :: ts).flatten)⟩ := by
  have hl := (C49_cut s _).1 hc
  have hr : (lex s).map canon = (Arith.call f args).tree.toks :=
    lex_renders (arith_valid _ h.valid) (by rw [arith_toks]; exact h.renders)
  have hp : ∃ es, parseTokens (lex s) = some (.func f es) ∧ ∀ e ∈ es, e.isTypes = true := by
    have h1 := parse_toks (arith_WF _ h.valid h.grouped 0 (.inl (Nat.zero_le _)))
    rw [← hr, parseTokens_map canon_kind canon_eof] at h1
    cases e : parseTokens (lex s) with
    | none => rw [e] at h1; cases h1
    | some t =>
      rw [e, Option.map_some, Option.some.injEq, Arith.tree] at h1
      obtain ⟨es, h2, h3⟩ := mapTok_func h1
      exact ⟨es, by rw [h2], mapToks_types _ _ h3 (trees_types args ha)⟩
  obtain ⟨es, hp, hes⟩ := hp
  have hk := parseTokens_kinds hp
  have hg := parseTokens_gram hp
  have hx : (Tree.func f es).textAt (lex s) = (w :: ts).flatten := by
    have := textAt_of (r := []) (kinds_width hg hk.symm)
    rw [List.append_nil] at this
    rw [this, textOf, hl]
  obtain ⟨u, us, e1, e2, e3⟩ : ∃ u us, lex s = u :: us ∧ u.text = w ∧ u.kind = .fn f := by
    cases e : lex s with
    | nil => rw [e] at hl; cases hl
    | cons u us =>
      rw [e] at hl hk
      simp only [List.map_cons, List.cons.injEq] at hl
      simp only [kindsOf, Tree.kinds, List.map_cons, List.cons.injEq] at hk
      exact ⟨u, us, rfl, hl.1, hk.1.symm⟩
  have hn : functionIn .turkish w = none := by
    have ht := tokens_table s u (by rw [e1]; exact List.mem_cons_self ..) (by rw [e3]; rfl)
    rw [e2, e3] at ht
    have := (lost_function ht hw).2
    by_contra hne
    exact this fun _ _ => hne
  have hname : nameAt 0 (lex s) = w := by rw [e1]; exact e2
  rw [parseVerbatim, vParse_of hp, Tree.decor, hx, hname]
  obtain ⟨st, hst⟩ := walkAllV_types .turkish df es hes ((lex s).drop 2) ⟨[], none, 0⟩
  simp only [walkV, hst]
  simp only [bind, Except.bind, exitMappedV, mapNodeV, hn]
  rfl

end BoolParser
