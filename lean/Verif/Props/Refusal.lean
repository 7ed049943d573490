import Verif.Lemmas.RefusalExact
import Verif.Lemmas.VerbatimTold
import Verif.Util.KRfl
/-!
# What the parser says of a text it refuses (C102)
-/

namespace BoolParser
open Spec

/-- **C102.** The parser with messages is the parser: forgetting the messages gives the outcome that all other theorems
speak of, for any text. -/
theorem C102_same (s : JStr) (df : Option JStr) : untold (parseTold s df) = parseAny s df := parseTold_same s df

theorem atom_grouped {e : Arith} (h : e.isAtom = true) : e.Grouped := by
  cases e <;> trivial

theorem parse_named {s : JStr} {ts : List JStr} (h : Cut s ts) {df : Option JStr} (hp : parseExpression s df ≠ .syntaxError) :
    NamedBy (Reproach ts) (parseTold s df) := by
  have hts := cut_unique h
  have hall : ∀ t ∈ lex s, Classified t.text t.kind := fun t ht => valid_classified (lex_valid _ s (Nat.le_refl _) t ht)
  rw [parseExpression] at hp
  cases e : parseTokens (lex s) with
  | none => rw [e] at hp; exact absurd rfl hp
  | some t =>
    rw [parseTold_gram e]
    have hg := parseTokens_gram e
    have hk := parseTokens_kinds e
    have hw := walkX_named hall df t (pre := []) (c := lex s) (post := []) (by simp) hg hk.symm LState.init
    rw [List.append_nil, textsOf, hts] at hw
    refine named_bind hw fun s1 h1 => ?_
    unfold exitParseX
    split
    · rename_i h2
      exfalso
      rcases walk_touched df t (walkX_walk df h1) with h | ⟨h, hc⟩
      · unfold exitParse at h2
        split at h2
        · cases h2
        · rename_i h3; exact h h3
      · unfold exitParse at h2
        split at h2
        · cases h2
        · split at h2
          · rw [if_pos (by rw [hc]; rfl)] at h2
            split at h2
            · cases h2
            · obtain h2 | ⟨_, _, h2⟩ := bind_err_inv h2
              · exact convert_quiet _ _ h2
              · cases h2
          · rename_i h3; rw [h3] at h; cases h
    · rename_i h2
      exact named_bare h2

/-- **C102.** If a text of the grammar is refused with an InvalidExpressionException, its message quotes, without white
space, a piece of the text that is an expression of the grammar itself and shows what is wrong: an item of a list or a side
of a comparison that can be none, a calculation of two compound operands, or an AND or OR. -/
theorem C102_names {s : JStr} {ts : List JStr} (h : Cut s ts) {df : Option JStr} (hp : parseExpression s df ≠ .syntaxError)
    {m : Option JStr} (he : parseTold s df = .error ⟨.invalidExpression, m⟩) : ∃ t, m = some t ∧ Reproach ts t :=
  parse_named h hp _ he rfl

/-- **C102.** Any text, well formed or not: the message of an InvalidExpressionException of the parser quotes a piece of the
text, token by token, with at most marks between them for what the parser looked for in vain. -/
theorem C102_quotes {s : JStr} {ts : List JStr} (h : Cut s ts) {df : Option JStr} {m : Option JStr}
    (he : parseTold s df = .error ⟨.invalidExpression, m⟩) :
    ∃ o x, m = some (o ++ x) ∧ o ∈ reproaches ∧ Quotes ts x := by
  rcases parseTold_quotes s df _ he with ⟨_, m', y, h3, h4, h5⟩ | ⟨h3, _⟩
  · rw [show List.map Token.text (lex s) = ts from cut_unique h] at h4
    rw [show m = some m' from h3]
    rcases h5 with rfl | rfl | rfl | rfl
    · exact ⟨_, y, rfl, .head _, h4⟩
    · exact ⟨_, y, rfl, .tail _ (.head _), h4⟩
    · exact ⟨_, y, rfl, .tail _ (.tail _ (.head _)), h4⟩
    · exact ⟨_, y, rfl, .tail _ (.tail _ (.tail _ (.head _))), h4⟩
  · exact absurd (show OfLibrary .invalidExpression by decide) h3

/-- **C102.** Both evaluators pass the exception on, message and all, whatever the data. -/
theorem C102_evaluators {s : JStr} {df : Option JStr} {f : Fault} (h : parseTold s df = .error f) (env : Env) (d : Data) :
    evaluateTold env s d df = .error f ∧ (df = none → evaluateArithTold env s d = .error f) := by
  refine ⟨by unfold evaluateTold; rw [h]; rfl, ?_⟩
  rintro rfl
  unfold evaluateArithTold; rw [h]; rfl

/-- **C102.** The first argument of a call that is neither a field nor a literal is the one quoted. -/
theorem C102_argument {f : FuncType} {as bs : List Arith} {a : Arith} {s : JStr} (hv : (Arith.call f (as ++ a :: bs)).Valid)
    (hg : (Arith.call f (as ++ a :: bs)).Grouped) (hs : Written (Arith.call f (as ++ a :: bs)).lexemes s)
    (h1 : ∀ e ∈ as, e.isAtom = true) (h2 : a.isAtom = false) (h3 : Brief a) (h4 : ∀ e ∈ bs, Brief e) (df : Option JStr) :
    parseTold s df =
      .error ⟨.invalidExpression, some (j!"Array does not support this expression " ++ a.lexemes.flatten)⟩ := by
  rw [← arith_toks] at hs
  rw [told_written (arith_valid _ hv) (arith_WF _ hv hg 0 (.inl (Nat.zero_le _))) hs]
  rw [Arith.Valid] at hv
  rw [Arith.Grouped] at hg
  obtain ⟨s1, hw⟩ := short_walks df (es := as ++ a :: bs) hv.2 (fun e he => by
    rcases List.mem_append.1 he with h | h
    · exact .inl (h1 e h)
    · rcases List.mem_cons.1 h with rfl | h
      · exact h3
      · exact h4 e h) LState.init
  rw [Arith.tree, walkX, told_of (walkAllX_same df _ _ _) hw]
  show ((exitMappedX df (.func f (Arith.trees (as ++ a :: bs))) _ s1) >>= _) = _
  rw [exitMappedX, mapNodeX, Tree.toks]
  show ((mapNodesX df (Arith.trees (as ++ a :: bs)) (Tree.toksList (Arith.trees (as ++ a :: bs)) ++ [rpTok]) s1.stack >>= _) >>= _) >>= _ = _
  rw [items_refused df [rpTok] hv.2 hg h1 h3 h2]
  rfl

/-- **C102.** The same for the items of IN and NOT IN. -/
theorem C102_item {f : JStr} {no : Bool} {as bs : List Arith} {a : Arith} {s : JStr} (hv : (Cond.isIn f no (as ++ a :: bs)).Valid)
    (hg : (Cond.isIn f no (as ++ a :: bs)).Grouped) (hs : Written (Cond.isIn f no (as ++ a :: bs)).lexemes s)
    (h1 : ∀ e ∈ as, e.isAtom = true) (h2 : a.isAtom = false) (h3 : Brief a) (h4 : ∀ e ∈ bs, Brief e) (df : Option JStr) :
    parseTold s df =
      .error ⟨.invalidExpression, some (j!"Array does not support this expression " ++ a.lexemes.flatten)⟩ := by
  rw [← cond_toks] at hs
  rw [told_written (cond_valid _ hv) (cond_WF _ hv hg 0 (.inl (by decide)) (.inl (by decide))) hs]
  obtain ⟨s1, hw⟩ := short_walks df (es := as ++ a :: bs) hv.2.2 (fun e he => by
    rcases List.mem_append.1 he with h | h
    · exact .inl (h1 e h)
    · rcases List.mem_cons.1 h with rfl | h
      · exact h3
      · exact h4 e h) LState.init
  rw [Cond.tree, walkX, told_of (walkAllX_same df _ _ _) hw]
  show ((exitMappedX df (.in_ (fieldTok f) no (Arith.trees (as ++ a :: bs))) _ s1) >>= _) = _
  have key := items_refused df [rpTok] hv.2.2 hg h1 h3 h2 s1.stack
  rw [exitMappedX, mapNodeX, Tree.toks]
  cases no
  · show ((mapNodesX df (Arith.trees (as ++ a :: bs)) (Tree.toksList (Arith.trees (as ++ a :: bs)) ++ [rpTok]) s1.stack >>= _) >>= _) >>= _ = _
    rw [key]
    rfl
  · show ((mapNodesX df (Arith.trees (as ++ a :: bs)) (Tree.toksList (Arith.trees (as ++ a :: bs)) ++ [rpTok]) s1.stack >>= _) >>= _) >>= _ = _
    rw [key]
    rfl

/-- **C102.** The same for CONTAINS_ALL and CONTAINS_ANY. -/
theorem C102_contained {f : JStr} {o : ArrOp} {as bs : List Arith} {a : Arith} {s : JStr}
    (hv : (Cond.contains f o (as ++ a :: bs)).Valid) (hg : (Cond.contains f o (as ++ a :: bs)).Grouped)
    (hs : Written (Cond.contains f o (as ++ a :: bs)).lexemes s)
    (h1 : ∀ e ∈ as, e.isAtom = true) (h2 : a.isAtom = false) (h3 : Brief a) (h4 : ∀ e ∈ bs, Brief e) (df : Option JStr) :
    parseTold s df =
      .error ⟨.invalidExpression, some (j!"Array does not support this expression " ++ a.lexemes.flatten)⟩ := by
  rw [← cond_toks] at hs
  rw [told_written (cond_valid _ hv) (cond_WF _ hv hg 0 (.inl (by decide)) (.inl (by decide))) hs]
  obtain ⟨s1, hw⟩ := short_walks df (es := as ++ a :: bs) hv.2.2 (fun e he => by
    rcases List.mem_append.1 he with h | h
    · exact .inl (h1 e h)
    · rcases List.mem_cons.1 h with rfl | h
      · exact h3
      · exact h4 e h) LState.init
  rw [Cond.tree, walkX, told_of (walkAllX_same df _ _ _) hw]
  show (exitArrayX df _ _ _ _ s1 >>= _) = _
  rw [exitArrayX, Tree.toks]
  show ((mapNodesX df (Arith.trees (as ++ a :: bs)) (Tree.toksList (Arith.trees (as ++ a :: bs)) ++ [rpTok]) s1.stack >>= _) >>= _) = _
  rw [items_refused df [rpTok] hv.2.2 hg h1 h3 h2]
  rfl

/-- **C102.** Two operands in parentheses with an operator between them: the whole calculation is quoted. -/
theorem C102_operands {o : ArithOp} {a b : Arith} {s : JStr} (ha : a.isAtom = true) (hb : b.isAtom = true) (va : a.Valid)
    (vb : b.Valid) (hs : Written (Arith.op o (.group a) (.group b)).lexemes s) (df : Option JStr) :
    parseTold s df = .error ⟨.invalidExpression, some (j!"Error parsing expression for the string " ++
      (Arith.op o (.group a) (.group b)).lexemes.flatten)⟩ := by
  have hv : (Arith.op o (.group a) (.group b)).Valid := by simp only [Arith.Valid]; exact ⟨va, vb⟩
  have hg : (Arith.op o (.group a) (.group b)).Grouped := by
    simp only [Arith.Grouped, atom_grouped ha, atom_grouped hb, Arith.level]; cases o <;> decide
  have ht := textAt_arith hv hg []
  rw [← arith_toks] at hs
  rw [told_written (arith_valid _ hv) (arith_WF _ hv hg 0 (.inl (Nat.zero_le _))) hs]
  rw [List.append_nil] at ht
  obtain ⟨ta, ea, _⟩ := atom_tree ha va
  obtain ⟨tb, eb, _⟩ := atom_tree hb vb
  rw [← ht]
  simp only [Arith.tree, ea, eb]
  rfl

/-- **C102.** Two operands in parentheses compared: the right one is quoted, as if it were the item of an array. -/
theorem C102_sides {o : CmpOp} {a b : Arith} {s : JStr} (ha : a.isAtom = true) (hb : b.isAtom = true) (va : a.Valid)
    (vb : b.Valid) (hs : Written (Cond.cmp o (.group a) (.group b)).lexemes s) (df : Option JStr) :
    parseTold s df = .error ⟨.invalidExpression, some (j!"Array does not support this expression " ++
      (Arith.group b).lexemes.flatten)⟩ := by
  have hv : (Cond.cmp o (.group a) (.group b)).Valid := ⟨va, vb, fun _ => ⟨rfl, rfl⟩⟩
  have hg : (Cond.cmp o (.group a) (.group b)).Grouped := by
    simp only [Cond.Grouped, Arith.Grouped, atom_grouped ha, atom_grouped hb, Arith.level]; decide
  have ht := textAt_arith (e := .group b) vb (by rw [Arith.Grouped]; exact atom_grouped hb) []
  rw [← cond_toks] at hs
  rw [told_written (cond_valid _ hv) (cond_WF _ hv hg 0 (.inl (by decide)) (.inl (by decide))) hs]
  rw [List.append_nil] at ht
  obtain ⟨ta, ea, _⟩ := atom_tree ha va
  obtain ⟨tb, eb, _⟩ := atom_tree hb vb
  rw [← ht]
  simp only [Cond.tree, Arith.tree, ea, eb]
  rfl

/-- **C102.** AND or OR between two names or literals: the whole text is quoted. -/
theorem C102_joined {s x o y : JStr} (h : Cut s [x, o, y]) {k l : TK} (hx : Classified x k) (hk : k ∈ typesKinds)
    (hy : Classified y l) (hl : l ∈ typesKinds) (ho : Classified o .kAnd ∨ Classified o .kOr) (df : Option JStr) :
    parseTold s df = .error ⟨.invalidExpression, some (j!"Error parsing binary expression for the string " ++ (x ++ o ++ y))⟩ := by
  have hall : ∀ t ∈ lex s, Classified t.text t.kind := fun t ht => valid_classified (lex_valid _ s (Nat.le_refl _) t ht)
  have hts := cut_unique h
  obtain ⟨kc, c, hc, hco⟩ : ∃ kc c, Classified o kc ∧ (kc = .kAnd ∧ c = true ∨ kc = .kOr ∧ c = false) := by
    rcases ho with ho | ho
    · exact ⟨_, true, ho, .inl ⟨rfl, rfl⟩⟩
    · exact ⟨_, false, ho, .inr ⟨rfl, rfl⟩⟩
  have hlex : lex s = [⟨k, x⟩, ⟨kc, o⟩, ⟨l, y⟩] := by
    match hl3 : lex s, hts with
    | [⟨k1, t1⟩, ⟨k2, t2⟩, ⟨k3, t3⟩], hts =>
      simp only [List.map_cons, List.map_nil, List.cons.injEq, and_true] at hts
      obtain ⟨rfl, rfl, rfl⟩ := hts
      rw [hl3] at hall
      rw [classified_one hx (hall ⟨k1, t1⟩ (by simp)), classified_one hc (hall ⟨k2, t2⟩ (by simp)),
        classified_one hy (hall ⟨k3, t3⟩ (by simp))]
  have hp : parseTokens [⟨k, x⟩, ⟨kc, o⟩, ⟨l, y⟩] = some (.bin c (.types ⟨k, x⟩ false) (.types ⟨l, y⟩ false)) := by
    simp only [typesKinds, List.mem_cons, List.not_mem_nil, or_false] at hk hl
    rcases hco with ⟨rfl, rfl⟩ | ⟨rfl, rfl⟩ <;>
      rcases hk with rfl | rfl | rfl | rfl | rfl | rfl | rfl | rfl | rfl <;>
      rcases hl with rfl | rfl | rfl | rfl | rfl | rfl | rfl | rfl | rfl <;> rfl
  rw [parseTold_gram (by rw [hlex]; exact hp), hlex]
  show Except.error (_ : Fault) = _
  simp [Tree.textAt, Tree.width, binaryText]

/-! ## Cases -/

/-- A text of the grammar that is refused. -/
example : ∃ t, parseTold j!"(a) * (c)" none = .error ⟨.invalidExpression, some t⟩ ∧
    Reproach [j!"(", j!"a", j!")", j!"*", j!"(", j!"c", j!")"] t := by
  have hp : parseExpression j!"(a) * (c)" none = .failure .invalidExpression := by krfl
  have ht : parseTold j!"(a) * (c)" none =
    .error ⟨.invalidExpression, some j!"Error parsing expression for the string (a)*(c)"⟩ := by rfl
  obtain ⟨t, e, h⟩ := C102_names (cut_of (by krfl)) (fun h => by rw [hp] at h; cases h) ht
  exact ⟨t, e ▸ ht, h⟩

/-- Texts that are not of the grammar: a parenthesis is missing; the whole text is quoted, with its end. -/
example : ∃ o x, parseTold j!"(a) * (c" none = .error ⟨.invalidExpression, some (o ++ x)⟩ ∧ o ∈ reproaches ∧
    Quotes [j!"(", j!"a", j!")", j!"*", j!"(", j!"c"] x := by
  have ht : parseTold j!"(a) * (c" none =
    .error ⟨.invalidExpression, some j!"Error parsing expression for the string (a)*(c<missing ')'>"⟩ := by rfl
  obtain ⟨o, x, e, h⟩ := C102_quotes (cut_of (by krfl)) ht
  exact ⟨o, x, e ▸ ht, h⟩

example : ∃ o x, parseTold j!"-b)" none = .error ⟨.invalidExpression, some (o ++ x)⟩ ∧ o ∈ reproaches ∧
    Quotes [j!"-", j!"b", j!")"] x := by
  have ht : parseTold j!"-b)" none =
    .error ⟨.invalidExpression, some j!"Error parsing expression for the string -b)<EOF>"⟩ := by rfl
  obtain ⟨o, x, e, h⟩ := C102_quotes (cut_of (by krfl)) ht
  exact ⟨o, x, e ▸ ht, h⟩

/-- The piece between the text's other tokens. -/
example : Reproach [j!"min", j!"(", j!"a", j!",", j!"-", j!"b", j!")"] j!"Array does not support this expression -b" :=
  .part (pre := [j!"min", j!"(", j!"a", j!","]) (p := [j!"-", j!"b"]) (post := [j!")"]) rfl
    (.inl ⟨.inr ⟨[j!"min", j!"(", j!"a"], _, rfl, .table (by decide +kernel)⟩, .inr ⟨_, [], rfl, .table (by decide +kernel)⟩⟩)
    (.minus (.table (by decide +kernel)) ⟨[.field], .cons (by
      exact valid_classified (lex_valid _ j!"b" (Nat.le_refl _) ⟨.field, j!"b"⟩ (by
        rw [show lex j!"b" = [⟨.field, j!"b"⟩] by krfl]; simp))) .nil, .types (by decide)⟩)

/-- Not every message reproaches: a wrong quotation. -/
example : ¬ Reproach [j!"a", j!"AND", j!"b"] j!"Error parsing not expression for the string aANDb" := by
  intro h
  generalize hm : j!"Error parsing not expression for the string aANDb" = m at h
  cases h <;> (revert hm; intro hm; have := congrArg (List.take 15) hm; revert this; simp)

example (df : Option JStr) : parseTold j!" min ( a , - b , ( c ) )" df =
    .error ⟨.invalidExpression, some j!"Array does not support this expression -b"⟩ :=
  C102_argument (f := .min) (as := [.field j!"a"]) (a := .neg (.field j!"b")) (bs := [.group (.field j!"c")])
    (by decide +kernel) (by decide +kernel) (written_spaced _) (by decide) rfl (.inr ⟨_, rfl, .inl rfl⟩)
    (by intro e he; rcases List.mem_singleton.1 he with rfl; exact .inr ⟨_, rfl, .inr rfl⟩) df

example (df : Option JStr) : parseTold j!" a NOT IN ( 5 , ( b ) )" df =
    .error ⟨.invalidExpression, some j!"Array does not support this expression (b)"⟩ :=
  C102_item (f := j!"a") (no := true) (as := [.lit (.int j!"5")]) (a := .group (.field j!"b")) (bs := [])
    (by decide +kernel) (by decide +kernel) (written_spaced _) (by decide) rfl (.inr ⟨_, rfl, .inr rfl⟩)
    (fun _ h => by cases h) df

example (df : Option JStr) : parseTold j!" a CONTAINS_ANY ( - 5 )" df =
    .error ⟨.invalidExpression, some j!"Array does not support this expression -5"⟩ :=
  C102_contained (f := j!"a") (o := .containsAny) (as := []) (a := .neg (.lit (.int j!"5"))) (bs := [])
    (by decide +kernel) (by decide +kernel) (written_spaced _) (by decide) rfl (.inr ⟨_, rfl, .inl rfl⟩)
    (fun _ h => by cases h) df

example (df : Option JStr) : parseTold j!" ( a ) * ( 5 )" df =
    .error ⟨.invalidExpression, some j!"Error parsing expression for the string (a)*(5)"⟩ :=
  C102_operands (o := .mul) (a := .field j!"a") (b := .lit (.int j!"5")) rfl rfl (by decide +kernel) (by decide +kernel)
    (written_spaced _) df

example (df : Option JStr) : parseTold j!" ( a ) > ( 5 )" df =
    .error ⟨.invalidExpression, some j!"Array does not support this expression (5)"⟩ :=
  C102_sides (o := .gt) (a := .field j!"a") (b := .lit (.int j!"5")) rfl rfl (by decide +kernel) (by decide +kernel)
    (written_spaced _) df

example (df : Option JStr) (env : Env) (d : Data) : evaluateTold env j!"a && 5" d df =
    .error ⟨.invalidExpression, some j!"Error parsing binary expression for the string a&&5"⟩ := by
  have hx : ∀ t ∈ lex j!"a && 5", Classified t.text t.kind := fun t ht => valid_classified (lex_valid _ _ (Nat.le_refl _) t ht)
  rw [show lex j!"a && 5" = [⟨.field, j!"a"⟩, ⟨.kAnd, j!"&&"⟩, ⟨.integer, j!"5"⟩] by krfl] at hx
  exact (C102_evaluators (C102_joined (x := j!"a") (o := j!"&&") (y := j!"5") (cut_of (by krfl)) (hx ⟨.field, j!"a"⟩ (by simp))
    (by decide) (hx ⟨.integer, j!"5"⟩ (by simp)) (by decide) (.inl (hx ⟨.kAnd, j!"&&"⟩ (by simp))) df) env d).1

end BoolParser
