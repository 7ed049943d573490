import Verif.Lemmas.LexTok
/-!
# Sequences of tokens
-/

namespace BoolParser

theorem junkLen_cons (c : Char) (r : JStr) : junkLen (c :: r) =
    if c = '\'' ∨ c = '"' then r.length + 1
    else if c = '!' ∨ c = '&' ∨ c = '|' then min 2 (r.length + 1)
    else 1 := rfl

theorem junkLen_pos (c : Char) (r : JStr) : 0 < junkLen (c :: r) := by
  rw [junkLen_cons]
  split
  · omega
  · split
    · simp
    · omega

theorem junkLen_le (s : JStr) : junkLen s ≤ s.length := by
  cases s with
  | nil => simp [junkLen]
  | cons c r =>
    rw [junkLen_cons]
    split
    · simp
    · split
      · simp only [List.length_cons]; omega
      · simp

theorem lexStep_sane {s : JStr} (h : s ≠ []) :
    0 < (lexStep s).2 ∧ (lexStep s).2 ≤ s.length ∧ (lexStep s).1.text = s.take (lexStep s).2 := by
  unfold lexStep
  split
  · rename_i k n e
    have := bestMatch_sane e
    exact ⟨this.1, this.2, rfl⟩
  · rename_i n e
    have := bestMatch_sane e
    exact ⟨this.1, this.2, rfl⟩
  · cases s with
    | nil => exact absurd rfl h
    | cons c r => exact ⟨junkLen_pos c r, junkLen_le (c :: r), rfl⟩

theorem lexGo_fuel (n f : Nat) (s : JStr) (hf : s.length ≤ f) (hn : s.length ≤ n) :
    lexGo f s = lexGo n s := by
  induction n generalizing f s with
  | zero =>
    have : s = [] := List.eq_nil_of_length_eq_zero (by omega)
    subst this; cases f <;> rfl
  | succ n ih =>
    cases f with
    | zero =>
      have : s = [] := List.eq_nil_of_length_eq_zero (by omega)
      subst this; rfl
    | succ f =>
      cases s with
      | nil => rfl
      | cons c r =>
        have h := lexStep_sane (s := c :: r) (by simp)
        simp only [lexGo]
        rw [ih f]
        · simp only [List.length_drop]; omega
        · simp only [List.length_drop]; omega

theorem lexItems_step {s : JStr} (h : s ≠ []) :
    lexItems s = (lexStep s).1 :: lexItems (s.drop (lexStep s).2) := by
  cases s with
  | nil => exact absurd rfl h
  | cons c r =>
    have hs := lexStep_sane (s := c :: r) (by simp)
    unfold lexItems
    conv_lhs => rw [List.length_cons]
    simp only [lexGo]
    rw [lexGo_fuel _ _ _ _ (le_refl _)]
    simp only [List.length_drop, List.length_cons] at *
    omega

theorem lexStep_tok {t : Token} {r : JStr} (ht : ValidTok t) (hg : glueOk t r = true) :
    lexStep (t.text ++ r) = (.tok t, t.text.length) := by
  simp [lexStep, best_append ht hg]

theorem lexItems_tok {t : Token} {r : JStr} (ht : ValidTok t) (hg : glueOk t r = true) :
    lexItems (t.text ++ r) = .tok t :: lexItems r := by
  rw [lexItems_step (by simp [ht.ne]), lexStep_tok ht hg]
  simp

theorem lex_tok {t : Token} {r : JStr} (ht : ValidTok t) (hg : glueOk t r = true) :
    lex (t.text ++ r) = t :: lex r := by
  simp [lex, lexItems_tok ht hg, LexItem.tok?]

@[simp] theorem lex_nil : lex [] = [] := rfl

theorem isWs_cases {c : Char} (h : isWs c = true) :
    c = ' ' ∨ c = '\r' ∨ c = '\t' ∨ c = '\n' ∨ c = Char.ofNat 12 := by
  simp only [isWs, Bool.or_eq_true, beq_iff_eq] at h
  rcases h with (((rfl | rfl) | rfl) | rfl) | h
  · simp
  · simp
  · simp
  · simp
  · right; right; right; right
    rw [← h, Char.ofNat_toNat]

theorem best_ws {c : Char} {r : JStr} (h : isWs c = true) :
    bestMatch (c :: r) lexRules = some (.ws, ((c :: r).takeWhile isWs).length) := by
  have e2 : lexRules = lexRules.take 39 ++ (.ws, mWs) :: [(.tok .word, mWord), (.tok .field, mField)] := by
    rfl
  rw [e2]
  apply bestMatch_pick
  · simp [mWs, nz, h]
  · have key : ∀ p ∈ lexRules.take 39, p.2 (c :: r) = none := by
      unfold lexRules
      simp only [List.take_succ_cons, List.take_zero, List.forall_mem_cons]
      rcases isWs_cases h with rfl | rfl | rfl | rfl | rfl
      all_goals
        refine ⟨?_, ?_, ?_, ?_, ?_, ?_, ?_, ?_, ?_, ?_, ?_, ?_, ?_, ?_, ?_, ?_,
            ?_, ?_, ?_, ?_, ?_, ?_, ?_, ?_, ?_, ?_, ?_, ?_, ?_, ?_, ?_, ?_, ?_, ?_, ?_, ?_, ?_, ?_, ?_, ?_⟩
        all_goals first
          | rfl
          | (intro p hp; cases hp)
    intro p hp j hj
    rw [key p hp] at hj; cases hj
  · intro p hp j hj
    simp only [List.mem_cons, List.not_mem_nil, or_false] at hp
    rcases hp with rfl | rfl
    · exfalso
      have : mWord (c :: r) = none := by
        rcases isWs_cases h with rfl | rfl | rfl | rfl | rfl <;> rfl
      simp only [this] at hj; cases hj
    · exfalso
      have : mField (c :: r) = none := by
        rcases isWs_cases h with rfl | rfl | rfl | rfl | rfl <;> rfl
      simp only [this] at hj; cases hj

theorem take_takeWhile (p : Char → Bool) (s : JStr) : s.take (s.takeWhile p).length = s.takeWhile p :=
  (List.prefix_iff_eq_take.mp (List.takeWhile_prefix p)).symm

theorem drop_takeWhile (p : Char → Bool) (s : JStr) : s.drop (s.takeWhile p).length = s.dropWhile p := by
  induction s with
  | nil => rfl
  | cons c cs ih =>
    simp only [List.takeWhile_cons, List.dropWhile_cons]
    split
    · simpa using ih
    · rfl

theorem lexItems_wsStart {c : Char} {r : JStr} (h : isWs c = true) :
    lexItems (c :: r) = .ws ((c :: r).takeWhile isWs) :: lexItems ((c :: r).dropWhile isWs) := by
  rw [lexItems_step (by simp)]
  simp only [lexStep, best_ws h]
  rw [take_takeWhile, drop_takeWhile]

/-- Leading white space does not matter. -/
theorem lex_dropWs (s : JStr) : lex s = lex (s.dropWhile isWs) := by
  cases s with
  | nil => rfl
  | cons c r =>
    by_cases h : isWs c = true
    · unfold lex
      rw [lexItems_wsStart h]
      rfl
    · simp [h]

theorem dropWhile_all_append {p : Char → Bool} {w r : JStr} (h : w.all p = true) :
    (w ++ r).dropWhile p = r.dropWhile p := by
  induction w with
  | nil => rfl
  | cons c cs ih =>
    simp only [List.all_cons, Bool.and_eq_true] at h
    simp [h.1, ih h.2]

theorem lex_ws {w r : JStr} (h : w.all isWs = true) : lex (w ++ r) = lex r := by
  rw [lex_dropWs, dropWhile_all_append h, ← lex_dropWs]

/-- Tokens written one after the other, each preceded by some white space; `tail` at the end. -/
def layout : List (JStr × Token) → JStr → JStr
  | [], tail => tail
  | (w, t) :: ps, tail => w ++ (t.text ++ layout ps tail)

/-- No token glues to what follows it. -/
def Apart : List (JStr × Token) → JStr → Prop
  | [], _ => True
  | (_, t) :: ps, tail => glueOk t (layout ps tail) = true ∧ Apart ps tail

theorem lex_layout {ps : List (JStr × Token)} {tail : JStr} (hw : ∀ p ∈ ps, p.1.all isWs = true)
    (hv : ∀ p ∈ ps, ValidTok p.2) (ht : tail.all isWs = true) (ha : Apart ps tail) :
    lex (layout ps tail) = ps.map Prod.snd := by
  induction ps with
  | nil =>
    have := lex_ws (r := []) ht
    simpa [layout] using this
  | cons p ps ih =>
    obtain ⟨w, t⟩ := p
    simp only [layout, Apart] at *
    rw [lex_ws (hw (w, t) (by simp)), lex_tok (hv (w, t) (by simp)) ha.1,
      ih (fun p hp => hw p (by simp [hp])) (fun p hp => hv p (by simp [hp])) ha.2]
    rfl

/-! ### White space keeps tokens apart -/

theorem ws_not_field {c : Char} (h : isWs c = true) : isFieldChar c = false := by
  rcases isWs_cases h with rfl | rfl | rfl | rfl | rfl <;> rfl

theorem glueOk_ws {t : Token} {c : Char} {r : JStr} (h : isWs c = true)
    (hd : t.kind = .date → timeAhead (c :: r) = false) : glueOk t (c :: r) = true := by
  have h1 : (!isFieldChar c) = true := by simp [ws_not_field h]
  have h2 : (c == '-') = false := by
    rcases isWs_cases h with rfl | rfl | rfl | rfl | rfl <;> rfl
  have h3 : (c != '=') = true := by
    rcases isWs_cases h with rfl | rfl | rfl | rfl | rfl <;> rfl
  have h4 : (!t.text.all isFieldChar ||
      ((c :: r).head?.all (fun c => !isFieldChar c) && !(digits4 t.text && (c :: r).head? == some '-')))
      = true := by
    simp [h1]
    right; right
    intro e; subst e; cases h2
  have h5 : ((c :: r).head? != some '=') = true := by
    simp only [List.head?_cons, bne_iff_ne, ne_eq, Option.some.injEq] at *
    simpa using h3
  unfold glueOk
  split
  · rename_i hk; simp [hd hk]
  all_goals first
    | rfl
    | exact h5
    | exact h4

theorem glueOk_nil {t : Token} : glueOk t [] = true := by
  unfold glueOk
  split <;> first | rfl | simp

end BoolParser
