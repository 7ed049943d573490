import Verif.Lemmas.Mentions
import Verif.Lemmas.HugeLiteral
/-!
# Token by token comparison of two evaluations
-/

namespace BoolParser
open Spec

/-- Everything an evaluation looks at is the same. -/
def V0 (env env' : Env) (d d' : Data) (strict : Bool) : Vocab where
  field f f' := getValueFromMap f d = getValueFromMap f' d' ∧ (lower f == j!"null") = (lower f' == j!"null")
  lit dt v v' := v = v' ∧ evalUnary d dt v = evalUnary d' dt v'
  bound v v' := v = v'
  word dt v v' := evalUnary d dt v = evalUnary d' dt v'
  lone v v' := evalUnary d .string v = evalUnary d' .string v' ∧ (strict = true → v = v')
  fn f := callFn env f = callFn env' f
  op o := arithBinary env o = arithBinary env' o

theorem V0_sim (env env' : Env) (d d' : Data) (b : Bool) : EvalSim (V0 env env' d d' b) env env' d d' where
  field h := h
  lit h := h
  bound h := h
  word h := h
  lone h := h.1
  op h := h
  fn h := h

/-- Does not begin with a quote. -/
def Unquoted (s : JStr) : Prop := s.head? ≠ some '\'' ∧ s.head? ≠ some '"'

theorem convert_unquoted {s : JStr} (h : Unquoted s) : convertValue s .string = .ok (.str s) := by
  simp only [convertValue]
  rw [if_neg (fun h' => h.1 h'.1), if_neg (fun h' => h.2 h'.1)]

/-- What makes two tokens interchangeable. -/
inductive TokOk (d d' : Data) (strict : Bool) : Token → Token → Prop
  | same (t : Token) : getValueFromMap t.text d = getValueFromMap t.text d' →
      (∀ dt v, (dt = tokType t ∨ dt = .string) → convertValue t.text dt = .ok v → dt ≠ .boolean → v ≠ .null →
        getValueFromMap v.text d = getValueFromMap v.text d') → TokOk d d' strict t t
  | field (f f' : JStr) : Unquoted f → Unquoted f' → getValueFromMap f d = getValueFromMap f' d' →
      (lower f == j!"null") = (lower f' == j!"null") → TokOk d d' strict ⟨.field, f⟩ ⟨.field, f'⟩
  | table (k : TK) (x x' : JStr) : (x, k) ∈ tokenTable → (x', k) ∈ tokenTable →
      getValueFromMap x d = getValueFromMap x' d' → (strict = true → OpensTypes k → x = x') →
      TokOk d d' strict ⟨k, x⟩ ⟨k, x'⟩

/-- … and the functions and operators work the same. -/
def TokEnv (env env' : Env) (t : Token) : Prop :=
  (∀ f, t.kind = .fn f → callFn env f = callFn env' f) ∧ (∀ o, t.kind = .arith o → arithBinary env o = arithBinary env' o)

theorem table_unquoted {k : TK} {x : JStr} (h : (x, k) ∈ tokenTable) : Unquoted x := by
  have : ∀ p ∈ tokenTable, p.1.head? ≠ some '\'' ∧ p.1.head? ≠ some '"' := by decide +kernel
  exact this _ h

theorem table_not_field {k : TK} {x : JStr} (h : (x, k) ∈ tokenTable) : k ≠ .field := by
  have : ∀ p ∈ tokenTable, p.2 ≠ .field := by decide +kernel
  exact this _ h

theorem table_type {k : TK} {x x' : JStr} (h : (x, k) ∈ tokenTable) : tokType ⟨k, x⟩ = tokType ⟨k, x'⟩ := by
  have : ∀ p ∈ tokenTable, p.2 ≠ .integer := by decide +kernel
  have := this _ h
  cases k <;> first | rfl | exact absurd rfl this

theorem table_true {k : TK} {x x' : JStr} (h : (x, k) ∈ tokenTable) (h' : (x', k) ∈ tokenTable)
    (hb : tokType ⟨k, x⟩ = .boolean) : convertValue x .boolean = convertValue x' .boolean := by
  have key : ∀ p ∈ tokenTable, (p.2 = .kTrue → isTrueText p.1 = true) ∧ (p.2 = .kFalse → isTrueText p.1 = false) := by
    decide +kernel
  have h1 := key _ h
  have h2 := key _ h'
  simp only [convertValue]
  cases k with
  | kTrue => rw [h1.1 rfl, h2.1 rfl]
  | kFalse => rw [h1.2 rfl, h2.2 rfl]
  | integer => simp only [tokType, numericType] at hb; split at hb <;> cases hb
  | _ => cases hb

theorem table_lit {k : TK} {x : JStr} (h : (x, k) ∈ tokenTable) (hl : isLitKind k = true) : k = .kTrue ∨ k = .kFalse := by
  have : ∀ p ∈ tokenTable, isLitKind p.2 = true → p.2 = .kTrue ∨ p.2 = .kFalse := by decide +kernel
  exact this _ h hl

theorem table_string {k : TK} {x : JStr} (h : (x, k) ∈ tokenTable) (hb : tokType ⟨k, x⟩ ≠ .boolean) :
    tokType ⟨k, x⟩ = .string := by
  have : ∀ p ∈ tokenTable, tokType ⟨p.2, p.1⟩ ≠ .boolean → tokType ⟨p.2, p.1⟩ = .string := by decide +kernel
  exact this _ h hb

theorem evalUnary_name {d d' : Data} {f f' : JStr} (h : getValueFromMap f d = getValueFromMap f' d') :
    evalUnary d .string (.str f) = evalUnary d' .string (.str f') := by
  unfold evalUnary
  rw [if_neg (by decide), if_neg (by decide)]
  simp only [toText, Value.text, ok_bind, requireField, lookupField, h]

theorem RRel.refl_ok {α : Type} {Q : α → α → Prop} {x : Result α} (h : ∀ a, x = .ok a → Q a a) : RRel Q x x := by
  cases x with
  | error e => exact .error e
  | ok a => exact .ok (h a rfl)

theorem tok_sim {env env' : Env} {d d' : Data} {strict : Bool} {df df' : Option JStr}
    (hdf : ORel (V0 env env' d d' strict).field df df') :
    Sim (fun t t' => TokOk d d' strict t t' ∧ TokEnv env env' t) (V0 env env' d d' strict) df df' where
  kind h := by obtain ⟨h, -⟩ := h; cases h <;> rfl
  type h := by
    obtain ⟨h, -⟩ := h
    cases h with
    | same => rfl
    | field => rfl
    | table k x x' hx _ _ _ => exact table_type hx
  field h hk := by
    obtain ⟨h, -⟩ := h
    cases h with
    | same _ h _ => exact ⟨h, rfl⟩
    | field _ _ _ _ h1 h2 => exact ⟨h1, h2⟩
    | table k x x' hx _ _ _ =>
      simp only at hk
      subst hk
      exact absurd rfl (table_not_field hx)
  lit h hk := by
    obtain ⟨h, -⟩ := h
    cases h with
    | same t _ h => exact RRel.refl_ok (fun v hv => ⟨rfl, evalUnary_agree (h _ v (.inl rfl) hv)⟩)
    | field => cases hk
    | table k x x' hx hx' _ _ =>
      simp only
      have hb : tokType ⟨k, x⟩ = .boolean := by rcases table_lit hx hk with rfl | rfl <;> rfl
      rw [hb, table_true hx hx' hb]
      exact RRel.refl_ok (fun v _ => ⟨rfl, evalUnary_agree (fun h => absurd rfl h)⟩)
  bound h := h.1
  lone h ho hk := by
    obtain ⟨h, -⟩ := h
    cases h with
    | same t _ h => exact RRel.refl_ok (fun v hv => ⟨evalUnary_agree (h _ v (.inr rfl) hv), fun _ => rfl⟩)
    | field => exact absurd rfl hk
    | table k x x' hx hx' hg hs =>
      simp only
      rw [convert_unquoted (table_unquoted hx), convert_unquoted (table_unquoted hx')]
      exact .ok ⟨evalUnary_name hg, fun h => by rw [hs h ho]⟩
  word h ho := by
    obtain ⟨h, -⟩ := h
    cases h with
    | same t _ h => exact RRel.refl_ok (fun v hv => evalUnary_agree (h _ v (.inl rfl) hv))
    | field f f' h1 h2 hg _ =>
      show RRel _ (convertValue f .string) (convertValue f' .string)
      rw [convert_unquoted h1, convert_unquoted h2]
      exact .ok (evalUnary_name hg)
    | table k x x' hx hx' hg hs =>
      simp only
      by_cases hb : tokType ⟨k, x⟩ = .boolean
      · rw [hb, table_true hx hx' hb]
        exact RRel.refl_ok (fun v _ => evalUnary_agree (fun h => absurd rfl h))
      · rw [table_string hx hb, convert_unquoted (table_unquoted hx), convert_unquoted (table_unquoted hx')]
        exact .ok (evalUnary_name hg)
  fn h hk := h.2.1 _ hk
  op h hk := h.2.2 _ hk
  dflt := hdf

theorem eof_env (env env' : Env) : TokEnv env env' eofTok := by
  constructor
  · intro f h; cases h
  · intro o h; cases h

/-- Two evaluations whose tokens are interchangeable. -/
theorem evaluate_tok {env env' : Env} {d d' : Data} {df df' : Option JStr} {s s' : JStr}
    (hdf : ORel (V0 env env' d d' false).field df df') (he : TokOk d d' false eofTok eofTok)
    (h : List.Forall₂ (fun t t' => TokOk d d' false t t' ∧ TokEnv env env' t) (lex s) (lex s')) :
    evaluate env s d df = evaluate env' s' d' df' :=
  evaluate_sim (tok_sim hdf) ⟨he, eof_env _ _⟩ (V0_sim ..) h

theorem evaluateArith_tok {env env' : Env} {d d' : Data} {s s' : JStr} (he : TokOk d d' true eofTok eofTok)
    (h : List.Forall₂ (fun t t' => TokOk d d' true t t' ∧ TokEnv env env' t) (lex s) (lex s')) :
    evaluateArith env s d = evaluateArith env' s' d' :=
  evaluateArith_sim (tok_sim .none) ⟨he, eof_env _ _⟩ (V0_sim ..)
    (fun h => h.2 rfl) h

theorem forall2_diag {α : Type} {R : α → α → Prop} {xs : List α} (h : ∀ x ∈ xs, R x x) : List.Forall₂ R xs xs := by
  induction xs with
  | nil => exact .nil
  | cons x xs ih => exact .cons (h x (by simp)) (ih (fun y hy => h y (by simp [hy])))

theorem forall2_tokens {Q : JStr → JStr → Prop} {xs ys : List Token}
    (h : List.Forall₂ Q (xs.map Token.text) (ys.map Token.text)) (hx : ∀ t ∈ xs, ValidTok t) (hy : ∀ t ∈ ys, ValidTok t) :
    List.Forall₂ (fun t t' => Q t.text t'.text ∧ (t ∈ xs ∧ Classified t.text t.kind) ∧ Classified t'.text t'.kind) xs ys := by
  suffices ∀ zs, (∀ t ∈ xs, t ∈ zs) → List.Forall₂
      (fun t t' => Q t.text t'.text ∧ (t ∈ zs ∧ Classified t.text t.kind) ∧ Classified t'.text t'.kind) xs ys from
    this xs (fun _ h => h)
  intro zs hz
  induction xs generalizing ys with
  | nil =>
    cases ys with
    | nil => exact .nil
    | cons => cases h
  | cons x xs ih =>
    cases ys with
    | nil => cases h
    | cons y ys =>
      cases h with
      | cons h1 h2 =>
        exact .cons ⟨h1, ⟨hz _ (by simp), valid_classified (hx x (by simp))⟩, valid_classified (hy y (by simp))⟩
          (ih h2 (fun t ht => hx t (by simp [ht])) (fun t ht => hy t (by simp [ht])) (fun t ht => hz t (by simp [ht])))

theorem forall2_imp {α β : Type} {R S : α → β → Prop} {xs : List α} {ys : List β} (h : List.Forall₂ R xs ys)
    (hi : ∀ a b, R a b → S a b) : List.Forall₂ S xs ys := by
  induction h with
  | nil => exact .nil
  | cons h _ ih => exact .cons (hi _ _ h) ih

theorem classified_one {t : JStr} {k k' : TK} (h : Classified t k) (h' : Classified t k') : k = k' :=
  valid_unique (classified_valid h) (classified_valid h')

theorem name_unquoted {t : JStr} (h : Classified t .field) : Unquoted t := by
  cases h with
  | table h => exact table_unquoted h
  | name h1 h2 =>
    cases t with
    | nil => exact absurd rfl h1
    | cons c cs =>
      simp only [List.all_cons, Bool.and_eq_true] at h2
      constructor <;> (simp only [List.head?_cons, ne_eq, Option.some.injEq]; rintro rfl; exact absurd h2.1 (by decide))

theorem numberName_like {ts : List JStr} {f : JStr} (h : NumberName ts f) : NumberLike f := by
  rcases h with ⟨l, _, hl, _, rfl⟩ | ⟨_, h⟩
  · cases l with
    | int ds => simp only [Lit.value]; split <;> exact numberLike_intStr _
    | dec a b => exact numberLike_dec _
    | _ => cases hl
  · exact h

/-- What the value of an operand of a text is looked up as. -/
theorem convert_name {ts : List JStr} {t : Token} (ht : t.text ∈ ts) (hc : Classified t.text t.kind) {dt : DataType}
    (hd : dt = tokType t ∨ dt = .string) {v : Value} (h : convertValue t.text dt = .ok v) (hb : dt ≠ .boolean)
    (hn : v ≠ .null) : v.text = t.text ∨ (∃ q, (q = '\'' ∨ q = '"') ∧ t.text = q :: (v.text ++ [q])) ∨ NumberName ts v.text := by
  have str : dt = .string → v.text = t.text ∨ (∃ q, (q = '\'' ∨ q = '"') ∧ t.text = q :: (v.text ++ [q])) ∨
      NumberName ts v.text := by
    rintro rfl
    rcases convertString h with rfl | ⟨q, r, hq, hs, rfl⟩
    · exact .inl rfl
    · exact .inr (.inl ⟨q, hq, hs⟩)
  rcases hd with hd | hd
  · obtain ⟨k, x⟩ := t
    simp only at ht hc h str ⊢
    have dates : (IsDateText x ∨ IsDateTimeText x) → v.text = x ∨ (∃ q, (q = '\'' ∨ q = '"') ∧ x = q :: (v.text ++ [q])) ∨
        NumberName ts v.text := by
      intro hx
      rcases convert_text h hb hn with h | h | h
      · exact .inl h
      · exact .inr (.inl h)
      · exact .inr (.inr (.inr ⟨⟨x, ht, hx⟩, h⟩))
    cases hc with
    | table hx => exact str (hd.trans (table_string hx (hd ▸ hb)))
    | integer hx =>
      by_cases hl : digitsValue x ≤ 9223372036854775807
      · have e := Spec.Lit.convert (l := .int x) ⟨hx, hl⟩
        rw [hd] at h
        have e' : convertValue x (tokType ⟨.integer, x⟩) = .ok (Lit.int x).value := e
        rw [e'] at h
        cases h
        exact .inr (.inr (.inl ⟨.int x, ⟨hx, hl⟩, rfl, ht, rfl⟩))
      · rw [hd, convert_huge hx (by omega)] at h
        cases h
    | decimal hx =>
      obtain ⟨a, b, ha, hb', rfl⟩ := hx
      have e := Spec.Lit.convert (l := .dec a b) ⟨ha, hb'⟩
      rw [hd] at h
      have e' : convertValue (a ++ '.' :: b) (tokType ⟨.decimal, a ++ '.' :: b⟩) = .ok (Lit.dec a b).value := e
      rw [e'] at h
      cases h
      exact .inr (.inr (.inl ⟨.dec a b, ⟨ha, hb'⟩, rfl, ht, rfl⟩))
    | version _ =>
      subst hd
      cases h
      exact .inl rfl
    | date hx => exact dates (.inl hx)
    | datetime hx => exact dates (.inr hx)
    | quoted _ => exact str hd
    | name _ _ _ _ _ _ => exact str hd
  · exact str hd

theorem convert_eofTok {dt : DataType} (hd : dt = tokType eofTok ∨ dt = .string) {v : Value}
    (h : convertValue eofTok.text dt = .ok v) : v.text = eofTok.text := by
  have : dt = .string := by rcases hd with rfl | rfl <;> rfl
  subst this
  cases h
  rfl

/-- The token itself, in the two maps. -/
theorem tok_same {ts : List JStr} {d d' : Data} {strict : Bool} {t : Token} (ht : t.text ∈ ts) (hc : Classified t.text t.kind)
    (hn : getValueFromMap t.text d = getValueFromMap t.text d')
    (hl : ∀ f, LiteralName ts f → SameAt f d d') : TokOk d d' strict t t := by
  refine .same t hn ?_
  intro dt v hd hv hb h0
  rcases convert_name ht hc hd hv hb h0 with h | ⟨q, hq, h⟩ | h
  · rw [h]; exact hn
  · exact sameAt_lookup (hl _ (.inr (.inl ⟨q, hq, h ▸ ht⟩)))
  · exact sameAt_lookup (hl _ (.inr (.inr (.inl h))))

theorem eof_same {ts : List JStr} {d d' : Data} {strict : Bool} (hl : ∀ f, LiteralName ts f → SameAt f d d') :
    TokOk d d' strict eofTok eofTok := by
  have hn : getValueFromMap eofTok.text d = getValueFromMap eofTok.text d' := sameAt_lookup (hl _ (.inr (.inr (.inr rfl))))
  refine .same _ hn ?_
  intro dt v hd hv _ _
  rw [convert_eofTok hd hv]
  exact hn

theorem tokEnv_refl (env : Env) (t : Token) : TokEnv env env t := ⟨fun _ _ => rfl, fun _ _ => rfl⟩

end BoolParser
