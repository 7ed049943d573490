import Verif.Lemmas.Tokens
/-!
# Lexemes, their kinds, and cutting a text
-/

namespace BoolParser
open Spec

theorem table_valid {t : JStr} {k : TK} (h : (t, k) ∈ tokenTable) : ValidTok ⟨k, t⟩ := by
  have key : tokenTable.all (fun x => decide (bestMatch x.1 lexRules = some (.tok x.2, x.1.length))) = true := by
    krfl
  rw [List.all_eq_true] at key
  exact valid_of_best (of_decide_eq_true (key _ h))

theorem length2 {s : JStr} (h : s.length = 2) : ∃ a b, s = [a, b] := by
  match s, h with
  | [a, b], _ => exact ⟨a, b, rfl⟩

theorem length4 {s : JStr} (h : s.length = 4) : ∃ a b c d, s = [a, b, c, d] := by
  match s, h with
  | [a, b, c, d], _ => exact ⟨a, b, c, d, rfl⟩

theorem isDateText_iff (t : JStr) : IsDateText t ↔ mPat j!"dddd-dd-dd" t = true ∧ t.length = 10 := by
  constructor
  · rintro ⟨y, m, d, ⟨hy, hy'⟩, ⟨hm, hm'⟩, ⟨hd, hd'⟩, rfl⟩
    obtain ⟨a, b, c, e, rfl⟩ := length4 hy
    obtain ⟨f, g, rfl⟩ := length2 hm
    obtain ⟨i, j, rfl⟩ := length2 hd
    simp only [List.all_cons, List.all_nil, Bool.and_true, Bool.and_eq_true] at hy' hm' hd'
    simp [mPat, hy', hm', hd']
  · rintro ⟨h, hl⟩
    match t, hl with
    | [a, b, c, d, e, f, g, i, j, k], _ =>
      simp [mPat] at h
      obtain ⟨h1, h2, h3, h4, rfl, h5, h6, rfl, h7, h8⟩ := h
      exact ⟨[a, b, c, d], [f, g], [j, k], ⟨rfl, by simp [*]⟩, ⟨rfl, by simp [*]⟩, ⟨rfl, by simp [*]⟩, rfl⟩

theorem isDateTimeText_iff (t : JStr) :
    IsDateTimeText t ↔ mPat j!"dddd-dd-dd dd:dd:dd" t = true ∧ t.length = 19 := by
  constructor
  · rintro ⟨x, h, m, s, hx, ⟨hh, hh'⟩, ⟨hm, hm'⟩, ⟨hs, hs'⟩, rfl⟩
    obtain ⟨hx, hl⟩ := (isDateText_iff x).mp hx
    obtain ⟨f, g, rfl⟩ := length2 hh
    obtain ⟨i, j, rfl⟩ := length2 hm
    obtain ⟨a, b, rfl⟩ := length2 hs
    simp only [List.all_cons, List.all_nil, Bool.and_true, Bool.and_eq_true] at hh' hm' hs'
    refine ⟨?_, by simp [hl]⟩
    rw [show j!"dddd-dd-dd dd:dd:dd" = j!"dddd-dd-dd" ++ j!" dd:dd:dd" from rfl, mPat_split (by simp [hl]), hx]
    simp [mPat, hh', hm', hs']
  · rintro ⟨h, hl⟩
    rw [show j!"dddd-dd-dd dd:dd:dd" = j!"dddd-dd-dd" ++ j!" dd:dd:dd" from rfl,
      ← List.take_append_drop 10 t, mPat_split (by simp [hl]), Bool.and_eq_true] at h
    have hd : (t.drop 10).length = 9 := by simp [hl]
    have hx := (isDateText_iff (t.take 10)).mpr ⟨h.1, by simp [hl]⟩
    have h2 := h.2
    match ht : t.drop 10, hd with
    | [a, b, c, d, e, f, g, i, j], _ =>
      rw [ht] at h2
      simp [mPat] at h2
      obtain ⟨rfl, h1, h2, rfl, h3, h4, rfl, h5, h6⟩ := h2
      refine ⟨t.take 10, [b, c], [e, f], [i, j], hx, ⟨rfl, by simp [*]⟩, ⟨rfl, by simp [*]⟩, ⟨rfl, by simp [*]⟩, ?_⟩
      rw [show ' ' :: ([b, c] ++ ':' :: ([e, f] ++ ':' :: [i, j])) = t.drop 10 by rw [ht]; rfl,
        List.take_append_drop]

theorem ws_rule : ∀ p ∈ lexRules, p.1 = .ws → p.2 = mWs := by
  unfold lexRules
  simp

theorem field_not_ws {c : Char} (h : isFieldChar c = true) : isWs c = false := by
  cases e : isWs c with
  | false => rfl
  | true => rw [ws_not_field e] at h; cases h

/-- Every lexeme, alone, is a token. -/
theorem lexeme_valid {t : JStr} (h : IsLexeme t) : ∃ k, ValidTok ⟨k, t⟩ := by
  rcases h with ⟨k, h⟩ | ⟨q, s, hq, hs, rfl⟩ | h | h | ⟨hne, ha⟩
  · exact ⟨k, table_valid h⟩
  · exact ⟨_, valid_quoted hq hs⟩
  · obtain ⟨h, hl⟩ := (isDateText_iff t).mp h
    exact ⟨_, valid_date h hl⟩
  · obtain ⟨h, hl⟩ := (isDateTimeText_iff t).mp h
    exact ⟨_, valid_datetime h hl⟩
  · have ha' := all_name_field ha
    have hf : mField t = some t.length := by
      have : t.length ≠ 0 := fun e => hne (List.eq_nil_of_length_eq_zero e)
      unfold mField; rw [all_takeWhile ha']; simp [nz, this]
    have hmem : ((.tok .field, mField) : LexKind × (JStr → Option Nat)) ∈ lexRules := by
      unfold lexRules; simp
    cases hb : bestMatch t lexRules with
    | none => have := bestMatch_none hb _ hmem; simp only at this; rw [hf] at this; cases this
    | some x =>
      obtain ⟨k, n⟩ := x
      have h1 := bestMatch_max hb _ hmem _ hf
      have h2 := bestMatch_sane hb
      have hn : n = t.length := by omega
      subst hn
      cases k with
      | tok k => exact ⟨k, hne, hb⟩
      | ws =>
        obtain ⟨p, hp, hk, hm⟩ := bestMatch_mem hb
        rw [ws_rule p hp hk] at hm
        have := nz_full hm
        obtain ⟨c, cs, rfl⟩ := List.exists_cons_of_ne_nil hne
        simp only [List.all_cons, Bool.and_eq_true] at this ha'
        rw [field_not_ws ha'.1] at this
        cases this.1

theorem mWord_full {s : JStr} (h : mWord s = some s.length) : IsQuoted s := by
  cases s with
  | nil => cases h
  | cons q r =>
    simp only [mWord] at h
    split at h
    · rename_i hq
      split at h
      · rename_i hlt
        injection h with h
        simp only [List.length_cons] at h
        have hd : (r.dropWhile (· ≠ q)).length = 1 := by
          rw [← drop_takeWhile, List.length_drop]; omega
        have hr := List.takeWhile_append_dropWhile (p := (· ≠ q)) (l := r)
        have hh := List.head?_dropWhile_not (· ≠ q) r
        match hx : r.dropWhile (· ≠ q), hd with
        | [d], _ =>
          rw [hx] at hh
          have hdq : d = q := by simpa using hh
          subst hdq
          rw [hx] at hr
          refine ⟨d, r.takeWhile (· ≠ d), hq, ?_, by rw [hr]⟩
          intro hm
          have := mem_takeWhile hm
          simp at this
      · cases h
    · cases h

/-- Every token's text is a lexeme. -/
theorem valid_lexeme {t : Token} (h : ValidTok t) : IsLexeme t.text := by
  obtain ⟨p, hp, hk, hm⟩ := bestMatch_mem h.best
  have hs := (valid_shape h).1
  have hne := h.ne
  obtain ⟨k, s⟩ := t
  have hall : ∀ {s : JStr}, s.all isFieldChar = true → s.all isNameChar = true := by
    intro s hs
    rw [List.all_eq_true] at *
    intro c hc; rw [nameChar_field]; exact hs c hc
  cases hs with
  | word h => exact .inr (.inr (.inr (.inr ⟨hne, hall h⟩)))
  | date hd =>
    have h10 := mDate_full hd h.best
    exact .inr (.inr (.inl ((isDateText_iff _).mpr ⟨hd, h10⟩)))
  | datetime hd =>
    have hb := h.best
    simp only at hb
    rw [bestMatch_datetime hd] at hb
    injection hb with hb; injection hb with _ hb
    exact .inr (.inr (.inr (.inl ((isDateTimeText_iff _).mpr ⟨hd, hb.symm⟩))))
  | quoted h => exact .inr (.inl (mWord_full h))
  | _ => exact .inl (by simp [tokenTable])

/-! ### Kinds -/

theorem mDecimal_text {s : JStr} (h : mDecimal s = some s.length) : IsDecimalText s := by
  simp only [mDecimal] at h
  split at h
  · cases h
  · rename_i hn
    split at h
    · rename_i r heq
      split at h
      · cases h
      · rename_i hm
        injection h with h
        have h2 := congrArg List.length heq
        simp only [List.length_drop, List.length_cons] at h2
        have h3 : (s.takeWhile isDigit).length ≤ s.length := takeWhile_le s
        have hr : r.all isDigit = true := takeWhile_full (by omega)
        have hs : s = s.takeWhile isDigit ++ '.' :: r := by
          conv_lhs => rw [← List.take_append_drop (s.takeWhile isDigit).length s]
          rw [heq, take_takeWhile]
        refine ⟨s.takeWhile isDigit, r, ⟨?_, List.all_eq_true.mpr fun c hc => mem_takeWhile hc⟩, ⟨?_, hr⟩, hs⟩
        · intro e; rw [e] at hn; exact hn rfl
        · intro e; rw [e] at hm; exact hm rfl
    · cases h

theorem dotInts_text (f : Nat) (s : JStr) (h : dotInts f s = s.length) :
    ∃ ps, s = dots ps ∧ ∀ p ∈ ps, IsDigits p := by
  induction f generalizing s with
  | zero =>
    rw [dotInts] at h
    have : s = [] := List.eq_nil_of_length_eq_zero h.symm
    exact ⟨[], this, by simp⟩
  | succ f ih =>
    cases s with
    | nil => exact ⟨[], rfl, by simp⟩
    | cons c cs =>
      by_cases hc : c = '.'
      · subst hc
        rw [dotInts_dot] at h
        split at h
        · simp at h
        · rename_i hm
          simp only [List.length_cons] at h
          have h3 : (cs.takeWhile isDigit).length ≤ cs.length := takeWhile_le cs
          obtain ⟨ps, hps, hall⟩ := ih (cs.drop (cs.takeWhile isDigit).length)
            (by simp only [List.length_drop]; omega)
          refine ⟨cs.takeWhile isDigit :: ps, ?_, ?_⟩
          · rw [dots, ← hps, drop_takeWhile, List.takeWhile_append_dropWhile]
          · intro p hp
            rcases List.mem_cons.mp hp with rfl | hp
            · exact ⟨by intro e; rw [e] at hm; exact hm rfl,
                List.all_eq_true.mpr fun c hc => mem_takeWhile hc⟩
            · exact hall p hp
      · rw [dotInts_noDot _ hc] at h; simp at h

theorem mVersion_text {s : JStr} (h : mVersion s = some s.length) : IsDecimalText s ∨ IsVersionText s := by
  cases s with
  | nil => cases h
  | cons c r =>
    simp only [mVersion] at h
    split at h
    · rename_i hc
      split at h
      · cases h
      · rename_i hm
        injection h with h
        simp only [List.length_cons] at h
        obtain ⟨ps, hps, hall⟩ := dotInts_text r.length r (by omega)
        match ps, hps, hall with
        | [], hps, _ =>
          rw [hps] at hm; simp [dots, dotInts] at hm
        | [p], hps, hall =>
          exact .inl ⟨[c], p, ⟨by simp, by simp [hc]⟩, hall p (by simp), by rw [hps]; simp [dots]⟩
        | p :: q :: ps, hps, hall => exact .inr ⟨c, p, q, ps, hc, hall, by rw [hps]⟩
    · cases h

/-- What the rules say about the texts they match completely. -/
inductive RuleClass : TK → JStr → Prop
  | table {k : TK} {t : JStr} : (t, k) ∈ tokenTable → RuleClass k t
  | decimal {t : JStr} : mDecimal t = some t.length → RuleClass .decimal t
  | version {t : JStr} : mVersion t = some t.length → RuleClass .version t
  | integer {t : JStr} : mInteger t = some t.length → RuleClass .integer t
  | date {t : JStr} : mDate t = some t.length → RuleClass .date t
  | datetime {t : JStr} : mDateTime t = some t.length → RuleClass .datetime t
  | word {t : JStr} : mWord t = some t.length → RuleClass .word t
  | field {t : JStr} : mField t = some t.length → RuleClass .field t

def Classes (p : LexKind × (JStr → Option Nat)) : Prop :=
  ∀ t k, p.1 = .tok k → p.2 t = some t.length → RuleClass k t

theorem class_lit {k : TK} {l : JStr} (h : (l, k) ∈ tokenTable) : Classes (.tok k, mLit l) := by
  intro t k' hk ht
  simp only [LexKind.tok.injEq] at hk; subst hk
  rw [mLit_full ht]; exact .table h

theorem class_lit2 {k : TK} {l1 l2 : JStr} (h1 : (l1, k) ∈ tokenTable) (h2 : (l2, k) ∈ tokenTable) :
    Classes (.tok k, mLit2 l1 l2) := by
  intro t k' hk ht
  simp only [LexKind.tok.injEq] at hk; subst hk
  rcases mLit2_full ht with e | e
  · rw [e]; exact .table h1
  · rw [e]; exact .table h2

theorem lexRules_class : ∀ p ∈ lexRules, Classes p := by
  unfold lexRules
  simp only [List.forall_mem_cons]
  refine ⟨?_, ?_, ?_, ?and, ?or, ?_, ?_, ?_, ?_, ?_, ?_, ?_, ?_, ?_, ?_, ?_,
    ?_, ?_, ?_, ?_, ?_, ?_, ?_, ?_, ?_, ?_, ?_, ?_, ?_, ?_, ?_, ?_, ?_, ?_, ?dec, ?ver, ?int, ?date, ?datetime,
    ?ws, ?word, ?field, ?nil⟩
  case and =>
    intro t k hk h
    simp only [LexKind.tok.injEq] at hk; subst hk
    simp only at h
    split at h
    · rename_i hp; injection h with h
      rw [isPrefixOf_full hp (by simpa using h)]; exact .table (by simp [tokenTable])
    · rcases mLit2_full h with rfl | rfl <;> exact .table (by simp [tokenTable])
  case or =>
    intro t k hk h
    simp only [LexKind.tok.injEq] at hk; subst hk
    simp only at h
    split at h
    · rename_i hp; injection h with h
      rw [isPrefixOf_full hp (by simpa using h)]; exact .table (by simp [tokenTable])
    · rcases mLit2_full h with rfl | rfl <;> exact .table (by simp [tokenTable])
  case dec => intro t k hk h; simp only [LexKind.tok.injEq] at hk; subst hk; exact .decimal h
  case ver => intro t k hk h; simp only [LexKind.tok.injEq] at hk; subst hk; exact .version h
  case int => intro t k hk h; simp only [LexKind.tok.injEq] at hk; subst hk; exact .integer h
  case date => intro t k hk h; simp only [LexKind.tok.injEq] at hk; subst hk; exact .date h
  case datetime => intro t k hk h; simp only [LexKind.tok.injEq] at hk; subst hk; exact .datetime h
  case ws => intro t k hk h; cases hk
  case word => intro t k hk h; simp only [LexKind.tok.injEq] at hk; subst hk; exact .word h
  case field => intro t k hk h; simp only [LexKind.tok.injEq] at hk; subst hk; exact .field h
  case nil => intro p hp; cases hp
  all_goals first
    | exact class_lit (by simp [tokenTable])
    | exact class_lit2 (by simp [tokenTable]) (by simp [tokenTable])

theorem valid_unique {k k' : TK} {t : JStr} (h : ValidTok ⟨k, t⟩) (h' : ValidTok ⟨k', t⟩) : k = k' := by
  have e := h.best; have e' := h'.best
  simp only at e e'
  rw [e] at e'
  injection e' with e'; injection e' with e' _; injection e'

theorem valid_decimalText {t : JStr} (h : IsDecimalText t) : ValidTok ⟨.decimal, t⟩ := by
  obtain ⟨a, b, ha, hb, rfl⟩ := h; exact valid_dec ha hb

theorem valid_versionText {t : JStr} (h : IsVersionText t) : ValidTok ⟨.version, t⟩ := by
  obtain ⟨c, p, q, ps, hc, hall, rfl⟩ := h
  have hd : ∀ ps : List JStr, dots ps = dotted ps := by
    intro ps
    induction ps with
    | nil => rfl
    | cons p ps ih => rw [dots, dotted, ih]
  rw [hd]
  exact valid_version hc (hall p (by simp)) (hall q (by simp)) (fun r hr => hall r (by simp [hr]))

/-- The kind of a token is the kind of its text. -/
theorem valid_classified {k : TK} {t : JStr} (h : ValidTok ⟨k, t⟩) : Classified t k := by
  obtain ⟨p, hp, hk, hm⟩ := bestMatch_mem h.best
  have hne := h.ne
  simp only at hm hne
  cases lexRules_class p hp t k hk hm with
  | table ht => exact .table ht
  | decimal hd => exact .decimal (mDecimal_text hd)
  | version hv =>
    rcases mVersion_text hv with hd | hv
    · have := valid_unique h (valid_decimalText hd); cases this
    · exact .version hv
  | integer hi => exact .integer ⟨hne, nz_full hi⟩
  | date hd =>
    unfold mDate at hd
    split at hd
    · rename_i hp
      injection hd with hd
      exact .date ((isDateText_iff t).mpr ⟨hp, hd.symm⟩)
    · cases hd
  | datetime hd =>
    unfold mDateTime at hd
    split at hd
    · rename_i hp
      injection hd with hd
      exact .datetime ((isDateTimeText_iff t).mpr ⟨hp, hd.symm⟩)
    · cases hd
  | word hw => exact .quoted (mWord_full hw)
  | field hf =>
    have ha : t.all isNameChar = true := by
      have := nz_full hf
      rw [List.all_eq_true] at *
      intro c hc; rw [nameChar_field]; exact this c hc
    refine .name hne ha ?_ ?_ ?_ ?_
    · intro k' hk'
      have e := valid_unique h (table_valid hk')
      subst e
      revert hk'
      simp [tokenTable]
    · intro hi; have := valid_unique h (valid_int hi); cases this
    · intro hd; have := valid_unique h (valid_decimalText hd); cases this
    · intro hv; have := valid_unique h (valid_versionText hv); cases this

theorem classified_lexeme {k : TK} {t : JStr} (h : Classified t k) : IsLexeme t := by
  cases h with
  | table h => exact .inl ⟨k, h⟩
  | integer h => exact valid_lexeme (valid_int h)
  | decimal h => exact valid_lexeme (valid_decimalText h)
  | version h => exact valid_lexeme (valid_versionText h)
  | date h => exact .inr (.inr (.inl h))
  | datetime h => exact .inr (.inr (.inr (.inl h)))
  | quoted h => exact .inr (.inl h)
  | name h1 h2 _ _ _ _ => exact .inr (.inr (.inr (.inr ⟨h1, h2⟩)))

theorem classified_valid {k : TK} {t : JStr} (h : Classified t k) : ValidTok ⟨k, t⟩ := by
  cases h with
  | table h => exact table_valid h
  | integer h => exact valid_int h
  | decimal h => exact valid_decimalText h
  | version h => exact valid_versionText h
  | date h => obtain ⟨h, hl⟩ := (isDateText_iff t).mp h; exact valid_date h hl
  | datetime h => obtain ⟨h, hl⟩ := (isDateTimeText_iff t).mp h; exact valid_datetime h hl
  | quoted h => obtain ⟨q, s, hq, hs, rfl⟩ := h; exact valid_quoted hq hs
  | name h1 h2 h3 h4 h5 h6 =>
    obtain ⟨k', hv⟩ := lexeme_valid (t := t) (.inr (.inr (.inr (.inr ⟨h1, h2⟩))))
    have hdash : ∀ {x : JStr}, x.all isNameChar = true → '-' ∉ x := by
      intro x hx hm
      have := List.all_eq_true.mp hx _ hm
      cases this
    cases valid_classified hv with
    | table h => exact absurd h (h3 k')
    | integer h => exact absurd h h4
    | decimal h => exact absurd h h5
    | version h => exact absurd h h6
    | date h => obtain ⟨y, m, d, _, _, _, rfl⟩ := h; exact absurd (by simp) (hdash h2)
    | datetime h =>
      obtain ⟨x, _, _, _, ⟨y, m, d, _, _, _, rfl⟩, _, _, _, rfl⟩ := h; exact absurd (by simp) (hdash h2)
    | quoted h =>
      obtain ⟨q, s, hq, _, rfl⟩ := h
      have := List.all_eq_true.mp h2 q (by simp)
      rcases hq with rfl | rfl <;> cases this
    | name _ _ _ _ _ _ => exact hv

theorem classified_iff {k : TK} {t : JStr} : Classified t k ↔ ValidTok ⟨k, t⟩ :=
  ⟨classified_valid, valid_classified⟩

/-! ### Cutting -/

theorem lexeme_head {t : JStr} (h : IsLexeme t) : ∃ c cs, t = c :: cs ∧ isWs c = false := by
  obtain ⟨k, hv⟩ := lexeme_valid h
  obtain ⟨c, cs, rfl⟩ := List.exists_cons_of_ne_nil hv.ne
  refine ⟨c, cs, rfl, ?_⟩
  cases hw : isWs c with
  | false => rfl
  | true =>
    have := hv.best
    simp only [best_ws hw] at this
    injection this with this; injection this with this _; cases this

/-- A lexeme at the start makes some rule match at least that much. -/
theorem lexeme_rule {t s : JStr} (h : IsLexeme t) (hp : t <+: s) :
    ∃ p ∈ lexRules, ∃ j, t.length ≤ j ∧ p.2 s = some j := by
  obtain ⟨k, hv⟩ := lexeme_valid h
  obtain ⟨p, hp', _, hm⟩ := bestMatch_mem hv.best
  obtain ⟨r, rfl⟩ := hp
  obtain ⟨n, hn, hm'⟩ := lexRules_grows p hp' t r hm
  exact ⟨p, hp', n, hn, hm'⟩

theorem lex_blank {c : Char} {r : JStr} (h : isWs c = true) : lex (c :: r) = lex r := by
  rw [lex_dropWs (c :: r), lex_dropWs r, List.dropWhile_cons, if_pos h]

theorem best_ws_head {s : JStr} {n : Nat} (h : bestMatch s lexRules = some (.ws, n)) :
    ∃ c cs, s = c :: cs ∧ isWs c = true := by
  obtain ⟨p, hp, hk, hm⟩ := bestMatch_mem h
  rw [ws_rule p hp hk] at hm
  cases s with
  | nil => cases hm
  | cons c cs =>
    refine ⟨c, cs, rfl, ?_⟩
    cases hc : isWs c with
    | true => rfl
    | false => simp [mWs, hc, nz] at hm

theorem lex_best_tok {s : JStr} {k : TK} {n : Nat} (h : bestMatch s lexRules = some (.tok k, n)) :
    lex s = ⟨k, s.take n⟩ :: lex (s.drop n) := by
  have hs : s ≠ [] := by
    intro e; subst e
    have := bestMatch_sane h
    simp at this; omega
  rw [lex, lexItems_step hs]
  simp only [lexStep, h, List.filterMap_cons, LexItem.tok?]
  rfl

theorem lex_best_none {s : JStr} (hs : s ≠ []) (h : bestMatch s lexRules = none) :
    lex s = lex (s.drop (junkLen s)) := by
  rw [lex, lexItems_step hs]
  simp only [lexStep, h, List.filterMap_cons, LexItem.tok?]
  rfl

/-- Every text is cut into the texts of its tokens. -/
theorem cut_lex (n : Nat) (s : JStr) (hn : s.length ≤ n) : Cut s ((lex s).map Token.text) := by
  induction n generalizing s with
  | zero =>
    have : s = [] := List.eq_nil_of_length_eq_zero (by omega)
    subst this; exact .done
  | succ n ih =>
    cases s with
    | nil => exact .done
    | cons c r =>
      simp only [List.length_cons] at hn
      by_cases hw : isWs c = true
      · rw [lex_blank hw]
        exact .blank (by rw [isBlank_ws]; exact hw) (ih r (by omega))
      · cases hb : bestMatch (c :: r) lexRules with
        | some x =>
          obtain ⟨k, m⟩ := x
          have hm := bestMatch_sane hb
          cases k with
          | ws =>
            obtain ⟨c', cs, e, hc⟩ := best_ws_head hb
            injection e with e _; subst e; exact absurd hc hw
          | tok k =>
            rw [lex_best_tok hb, List.map_cons]
            have hl : ((c :: r).take m).length = m := by rw [List.length_take]; omega
            have hmain := Cut.token (t := (c :: r).take m) (r := (c :: r).drop m)
              (ts := (lex ((c :: r).drop m)).map Token.text) (valid_lexeme (valid_of_bestMatch hb)) ?_
              (ih _ (by simp only [List.length_drop, List.length_cons]; omega))
            · rw [List.take_append_drop] at hmain; exact hmain
            · intro t' ht' hp
              rw [List.take_append_drop] at hp
              obtain ⟨p, hp', j, hj, hj'⟩ := lexeme_rule ht' hp
              have := bestMatch_max hb p hp' j hj'
              omega
        | none =>
          rw [lex_best_none (by simp) hb]
          have hpos := junkLen_pos c r
          have hle := junkLen_le (c :: r)
          have hmain := Cut.dropped (x := (c :: r).take (junkLen (c :: r))) (r := (c :: r).drop (junkLen (c :: r)))
            (ts := (lex ((c :: r).drop (junkLen (c :: r)))).map Token.text) ?_ ?_ ?_
            (ih _ (by simp only [List.length_drop, List.length_cons] at *; omega))
          · rw [List.take_append_drop] at hmain; exact hmain
          · intro c' hc'
            rw [List.head?_take, if_neg (by omega)] at hc'
            injection hc' with hc'; subst hc'
            rw [isBlank_ws]; simpa using hw
          · intro t' ht' hp
            rw [List.take_append_drop] at hp
            obtain ⟨p, hp', j, hj, hj'⟩ := lexeme_rule ht' hp
            rw [bestMatch_none hb p hp'] at hj'; cases hj'
          · rw [junkLen_cons]
            split
            · rename_i hq
              exact .inl ⟨c, r, hq, by simp, by simp⟩
            · rename_i hq
              split
              · rename_i h3
                refine .inr (.inl ⟨c, by simpa using h3, ?_⟩)
                cases r with
                | nil => exact .inr ⟨by simp, by simp⟩
                | cons d ds => exact .inl ⟨d, by simp⟩
              · rename_i h3
                refine .inr (.inr ⟨c, ?_, by simp⟩)
                simp only [List.mem_cons, List.not_mem_nil, or_false]
                tauto

theorem cut_unique {s : JStr} {ts : List JStr} (h : Cut s ts) : (lex s).map Token.text = ts := by
  induction h with
  | done => rfl
  | blank hc _ ih => rw [isBlank_ws] at hc; rw [lex_blank hc]; exact ih
  | @token t r ts ht hmax _ ih =>
    obtain ⟨p, hp, j, hj, hj'⟩ := lexeme_rule ht (List.prefix_append t r)
    cases hb : bestMatch (t ++ r) lexRules with
    | none => rw [bestMatch_none hb p hp] at hj'; cases hj'
    | some x =>
      obtain ⟨k, n⟩ := x
      have h1 := bestMatch_max hb p hp j hj'
      have h2 := bestMatch_sane hb
      cases k with
      | ws =>
        obtain ⟨c, cs, e, hc⟩ := best_ws_head hb
        obtain ⟨c', cs', rfl, hc'⟩ := lexeme_head ht
        injection e with e _; subst e
        rw [hc] at hc'; cases hc'
      | tok k =>
        have h3 := hmax _ (valid_lexeme (valid_of_bestMatch hb)) (List.take_prefix n _)
        simp only [List.length_take, Nat.min_eq_left h2.2] at h3
        have hn : n = t.length := by omega
        subst hn
        rw [lex_best_tok hb, List.take_left', List.drop_left', List.map_cons, ih] <;> rfl
  | @dropped x r ts hx hno hd _ ih =>
    have hne : x ≠ [] := by
      rintro rfl
      rcases hd with ⟨q, y, _, e, _⟩ | ⟨c, _, ⟨c', e⟩ | ⟨e, _⟩⟩ | ⟨c, _, e⟩ <;> cases e
    obtain ⟨c, cs, rfl⟩ := List.exists_cons_of_ne_nil hne
    cases hb : bestMatch ((c :: cs) ++ r) lexRules with
    | some x =>
      obtain ⟨k, n⟩ := x
      cases k with
      | ws =>
        obtain ⟨c', cs', e, hc⟩ := best_ws_head hb
        injection e with e _; subst e
        have := hx c rfl
        rw [isBlank_ws, hc] at this; cases this
      | tok k => exact absurd (List.take_prefix n _) (hno _ (valid_lexeme (valid_of_bestMatch hb)))
    | none =>
      rw [lex_best_none (by simp) hb]
      have hj : junkLen ((c :: cs) ++ r) = (c :: cs).length := by
        rw [List.cons_append, junkLen_cons]
        rcases hd with ⟨q, y, hq, e, hr⟩ | ⟨c', hc, ⟨d, e⟩ | ⟨e, hr⟩⟩ | ⟨c', hc, e⟩
        · injection e with e1 e2; subst e1; subst e2; subst hr
          rw [if_pos hq]; simp
        · injection e with e1 e2; subst e1; subst e2
          simp only [List.mem_cons, List.not_mem_nil, or_false] at hc
          rw [if_neg (by rcases hc with rfl | rfl | rfl <;> decide), if_pos hc]
          simp
        · injection e with e1 e2; subst e1; subst e2; subst hr
          simp only [List.mem_cons, List.not_mem_nil, or_false] at hc
          rw [if_neg (by rcases hc with rfl | rfl | rfl <;> decide), if_pos hc]
          simp
        · injection e with e1 e2; subst e1; subst e2
          simp only [List.mem_cons, List.not_mem_nil, or_false, not_or] at hc
          rw [if_neg (by tauto), if_neg (by tauto)]; rfl
      rw [hj, List.drop_left']
      · exact ih
      · rfl

theorem lex_valid (n : Nat) (s : JStr) (hn : s.length ≤ n) : ∀ t ∈ lex s, ValidTok t := by
  induction n generalizing s with
  | zero =>
    have : s = [] := List.eq_nil_of_length_eq_zero (by omega)
    subst this; intro t ht; cases ht
  | succ n ih =>
    cases s with
    | nil => intro t ht; cases ht
    | cons c r =>
      simp only [List.length_cons] at hn
      by_cases hw : isWs c = true
      · rw [lex_blank hw]; exact ih r (by omega)
      · cases hb : bestMatch (c :: r) lexRules with
        | some x =>
          obtain ⟨k, m⟩ := x
          have hm := bestMatch_sane hb
          cases k with
          | ws =>
            obtain ⟨c', cs, e, hc⟩ := best_ws_head hb
            injection e with e _; subst e; exact absurd hc hw
          | tok k =>
            rw [lex_best_tok hb]
            intro t ht
            rcases List.mem_cons.mp ht with rfl | ht
            · exact valid_of_bestMatch hb
            · exact ih _ (by simp only [List.length_drop, List.length_cons]; omega) t ht
        | none =>
          rw [lex_best_none (by simp) hb]
          have hpos := junkLen_pos c r
          exact ih _ (by simp only [List.length_drop, List.length_cons] at *; omega)

end BoolParser
