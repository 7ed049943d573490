import Verif.Lemmas.AnyLone
import Verif.Lemmas.CauseTexts
import Verif.Spec.AnyCauses
/-!
# The causes of failures in any text
-/

namespace BoolParser
open Spec

/-- The values any text and data can bring about. -/
def worldAny (ts : List JStr) (d : Data) : Givens where
  null := NullElement d ∨ (∃ t ∈ ts, BadDate t) ∨ DateBound ts
  flt := HoldsDouble d
  empty := HoldsEmpty d
  coll := HoldsOther d
  big := ¬ EntriesInRange d ∨ Uses ts (.fn .len) ∨ Uses ts (.fn .daysElapsed)

/-- What any text offers. -/
def stockAny (ts : List JStr) (df : Option JStr) (d : Data) : Stock where
  kind k := Uses ts k ∨ (k = .kTo ∧ SkipsTo ts) ∨ (k = .kIn ∧ SkipsIn ts)
  field f := (f ∈ ts ∧ Classified f .field) ∨ (df = some f ∧ LacksOperand ts)
  lit t v := Val (worldAny ts d) v ∧ (t = .boolean → ∃ b, v = .bool b) ∧
    (t ≠ .boolean → v ≠ .null → Mentions ts df v.text)
  bound _ v := Val (worldAny ts d) v
  gap := df = none ∧ LacksOperand ts

theorem val_any {ts : List JStr} {d : Data} {v : Value} (h : Val (worldOf ts d) v) : Val (worldAny ts d) v := by
  intro x hx
  have := h x hx
  cases x with
  | null => exact this.imp id .inl
  | _ => exact this

theorem val_convert {W : Givens} {x : JStr} {dt : DataType} {v : Value} (h : convertValue x dt = .ok v)
    (hn : v = .null → W.null) : Val W v := by
  have hr := convertValue_range x dt v h
  cases dt with
  | integer | long | decimal =>
    simp only [convertValue] at h
    split at h <;> cases h
    first | exact val_dec _ | exact val_int (.inl (by simpa [InRange] using hr)) | exact val_long (.inl (by simpa [InRange] using hr))
  | boolean => cases h; exact val_bool _
  | version => cases h; exact val_of trivial rfl
  | string =>
    rcases convertString h with rfl | ⟨q, r, _, _, rfl⟩ <;> exact val_str _
  | date =>
    simp only [convertValue] at h
    split at h
    · cases h; exact val_of trivial rfl
    · cases h; exact val_of (hn rfl) rfl
  | datetime =>
    simp only [convertValue] at h
    split at h
    · cases h; exact val_of trivial rfl
    · cases h; exact val_of (hn rfl) rfl

/-- The value of a literal is null only for a date. -/
theorem convert_null {x : JStr} {dt : DataType} (h : convertValue x dt = .ok .null) : dt = .date ∨ dt = .datetime := by
  cases dt with
  | date => exact .inl rfl
  | datetime => exact .inr rfl
  | integer | long | decimal => simp only [convertValue] at h; split at h <;> cases h
  | boolean => cases h
  | version => cases h
  | string => rcases convertString h with h | ⟨q, r, _, _, h⟩ <;> cases h

theorem tokType_date {t : Token} (h : tokType t = .date ∨ tokType t = .datetime) : t.kind = .date ∨ t.kind = .datetime := by
  unfold tokType numericType at h
  rcases h with h | h <;> split at h <;> first
    | (cases h; done)
    | (rename_i hk; exact .inl hk)
    | (rename_i hk; exact .inr hk)
    | (split at h <;> cases h)

section
variable {s : JStr} {ts : List JStr} {df : Option JStr} {d : Data} {env : Env}

theorem awaits_iff {t : Token} (hc : Classified t.text t.kind) (h : t.kind.awaits = true) : AwaitsOperand t.text := by
  unfold AwaitsOperand
  cases hk : t.kind <;> rw [hk] at h hc <;> first
    | (exact .inr (.inl hc))
    | (exact .inr (.inr (.inl hc)))
    | (exact .inr (.inr (.inr (.inl hc))))
    | (exact .inr (.inr (.inr (.inr (.inl hc)))))
    | (exact .inr (.inr (.inr (.inr (.inr ⟨_, hc⟩)))))
    | (exact .inl (opens_wants (t := t) (by rw [hk]; exact hc) (by rw [hk]; exact h)))

theorem begins_kind {t : Token} (hc : Classified t.text t.kind) (h : BeginsOperand t.text) : t.kind.begins = true := by
  rcases h with (h | (h | h) | h | h | h | h | h | h) | h | h | h | ⟨f, h⟩ <;> rw [classified_one hc h] <;> rfl

theorem operand_lexeme {t : Token} (hc : Classified t.text t.kind) (h : isLitKind t.kind = true ∨ t.kind = .field) :
    OperandLexeme t.text := by
  rcases h with h | h
  · unfold OperandLexeme NumberLexeme
    cases hk : t.kind <;> rw [hk] at h hc <;> first | (cases h; done) | (simp [hc]; done)
  · rw [h] at hc; exact .inl hc

theorem operator_kind {t : Token} (hc : Classified t.text t.kind) (h : IsOperator t.text) : isBinKind t.kind = true := by
  rcases h with ⟨o, h⟩ | ⟨o, h⟩ | h | h <;> rw [classified_one hc h] <;> rfl

theorem num_lexeme {t : Token} (hc : Classified t.text t.kind) (h : isNumKind t.kind = true) : NumberLexeme t.text := by
  cases hk : t.kind <;> rw [hk] at h hc <;> first | (cases h; done) | exact .inl hc | exact .inr hc

theorem no_eof (hc : Cut s ts) : ∀ t ∈ lex s, t.kind ≠ .eof := by
  intro t ht he
  have := (cut_texts hc ht).2
  rw [he] at this
  cases this with
  | table h => exact absurd rfl ((by decide +kernel : ∀ p ∈ tokenTable, p.2 ≠ TK.eof) _ h)

theorem cut_split (hc : Cut s ts) {pre post : List Token} (h : lex s = pre ++ post) :
    ts = pre.map Token.text ++ post.map Token.text := by
  rw [← cut_unique hc, h, List.map_append]

theorem text_supply (hc : Cut s ts) : Supply (stockAny ts df d) (LacksOperand ts) (lex s) := by
  have ht : ∀ t ∈ lex s, t.text ∈ ts ∧ Classified t.text t.kind := fun t ht => cut_texts hc ht
  have lits : ∀ {t : Token}, (t ∈ lex s ∨ t = eofTok) → ∀ {dt : DataType} {v : Value}, (dt = tokType t ∨ dt = .string) →
      convertValue t.text dt = .ok v → (stockAny ts df d).lit dt v := by
    intro t hm dt v hd hv
    refine ⟨val_any (lit_val (hm.imp (fun h => (ht t h).1) id) (fun hn => (ht t (hm.resolve_right hn)).2) hd hv), ?_, ?_⟩
    · rintro rfl; cases hv; exact ⟨_, rfl⟩
    · intro hb hn
      have key : FieldNames ts df v.text ∨ LiteralName ts v.text := by
        rcases hm with hm | rfl
        · exact name_lit (s := t.text) (.inl (ht t hm).1) (convert_name (ht t hm).1 (ht t hm).2 hd hv hb hn)
        · exact name_lit (.inr rfl) (.inl (convert_eofTok hd hv))
      rcases key with (h | h) | h
      · exact .inl h
      · exact .inr (.inl h)
      · exact .inr (.inr h)
  have tok : ∀ t, (t ∈ lex s ∨ t = eofTok) → TokMade (stockAny ts df d) t := by
    intro t hm
    refine ⟨fun hk => .inl ?_, fun v hv => lits hm (.inl rfl) hv, fun v hv => lits hm (.inr rfl) hv,
      fun v hv => (lits hm (.inl rfl) hv).1⟩
    rcases hm with hm | rfl
    · exact ⟨(ht t hm).1, hk ▸ (ht t hm).2⟩
    · cases hk
  refine ⟨tok _ (.inr rfl), fun t h => tok t (.inl h), fun t h => .inl ⟨t.text, ht t h⟩, ?_, ?_, ?_, ?_⟩
  · intro pre r h h1 h2
    refine ⟨pre.map Token.text, r.map Token.text, cut_split hc h, fun x hx => ?_, fun x hx hb => ?_⟩
    · rw [List.getLast?_map] at hx
      obtain ⟨t, hp, rfl⟩ := Option.map_eq_some_iff.1 hx
      exact awaits_iff (ht t (by rw [h]; exact List.mem_append_left _ (List.mem_of_getLast? hp))).2 (h1 t hp)
    · rw [List.head?_map] at hx
      obtain ⟨t, hp, rfl⟩ := Option.map_eq_some_iff.1 hx
      have := begins_kind (ht t (by rw [h]; exact List.mem_append_right _ (List.mem_of_head? hp))).2 hb
      rw [h2 t hp] at this
      cases this
  · intro f x y post ⟨pre, h⟩ hf hx hy
    have hm : ∀ t ∈ [f, x, y], t ∈ lex s := by intro t ht; rw [← h]; simp at ht ⊢; tauto
    refine .inr (.inl ⟨rfl, pre.map Token.text, f.text, x.text, y.text, post.map Token.text, ?_, ?_, ?_, ?_⟩)
    · rw [cut_split hc h.symm]; simp
    · exact hf ▸ (ht f (hm f (by simp))).2
    · exact num_lexeme (ht x (hm x (by simp))).2 hx
    · exact num_lexeme (ht y (hm y (by simp))).2 hy
  · intro f x y post ⟨pre, h⟩ hf hx hy
    have hm : ∀ t ∈ [f, x, y], t ∈ lex s := by intro t ht; rw [← h]; simp at ht ⊢; tauto
    refine .inr (.inr ⟨rfl, pre.map Token.text, f.text, x.text, y.text, post.map Token.text, ?_, ?_, ?_, ?_⟩)
    · rw [cut_split hc h.symm]; simp
    · exact hf ▸ (ht f (hm f (by simp))).2
    · exact hx ▸ (ht x (hm x (by simp))).2
    · exact hy ▸ (ht y (hm y (by simp))).2
  · intro ctx st hst hto v hv
    have hhead : st.head ∈ lex s ∨ st.head = eofTok := by
      unfold RState.head
      cases e : st.toks with
      | nil => exact .inr rfl
      | cons t r => exact .inl (hst.subset (by rw [e]; simp))
    by_cases hn : isNumKind st.la = true
    · have : matchTok isNumKind (lookAfter (.ops :: ctx)) st = some ([st.head], st.take) := by
        unfold matchTok; rw [if_pos hn]
      unfold rUpper at hv ⊢
      rw [this] at hv ⊢
      simp only [List.map_cons, List.map_nil, List.flatten_cons, List.flatten_nil, List.append_nil] at hv ⊢
      exact (lits hhead (.inl rfl) hv).1
    · obtain ⟨pre, x, h1, h2⟩ := hto.resolve_left hn
      refine val_convert hv ?_
      rintro rfl
      have hd := tokType_date (convert_null hv)
      have hu : (rUpper ctx st).1.1 = st.head := by unfold rUpper; split <;> rfl
      rw [hu] at hd
      obtain ⟨r, e1, _⟩ := head_cons (s := st) rfl (by
        intro e
        have : st.head.kind = .eof := e
        rw [this] at hd; rcases hd with hd | hd <;> cases hd)
      have hm : st.head ∈ lex s := hst.subset (by rw [e1]; simp)
      refine .inr (.inr ⟨pre.map Token.text, x.text, st.head.text, r.map Token.text, ?_, ?_, ?_⟩)
      · rw [cut_split hc h1, e1]; simp
      · exact h2 ▸ (ht x (by rw [h1]; simp)).2
      · have := (ht _ hm).2
        rcases hd with hd | hd <;> rw [hd] at this
        · cases this with
          | date h => exact .inl h
          | table h => exact absurd rfl ((by decide +kernel : ∀ p ∈ tokenTable, p.2 ≠ TK.date) _ h)
        · cases this with
          | datetime h => exact .inr h
          | table h => exact absurd rfl ((by decide +kernel : ∀ p ∈ tokenTable, p.2 ≠ TK.datetime) _ h)

theorem uses_any {k : TK} (h : (stockAny ts df d).kind k) (h1 : k ≠ .kTo) (h2 : k ≠ .kIn) : Uses ts k := by
  rcases h with h | h | h
  · exact h
  · exact absurd h.1 h1
  · exact absurd h.1 h2

theorem arr_uses_any {op : ArrOp} (h : (stockAny ts df d).kind op.kind) : UsesContains ts := by
  cases op
  · exact .inl (uses_any h (by decide) (by decide))
  · exact .inr (uses_any h (by decide) (by decide))

theorem explainsAny (ts : List JStr) (df : Option JStr) (d : Data) (a : Bool) :
    Explains (stockAny ts df d) (worldAny ts d) d (fun e => Cause ts df d a e ∨ Slip ts df d a e) where
  lit h := h.1
  bound h := h
  litBool h := h.2.1 rfl
  data h := val_any (data_val h)
  type h hk := by
    rcases h with h | h | h
    · exact .inl (looks_uses h hk)
    · exact .inr (.inl h.2)
    · exact .inr (.inr h.2)
  missing := .inl trivial
  gap h := .inr (.inr h)
  null h := by
    rcases h with h | h | h
    · exact .inl (.inl h)
    · exact .inl (.inr (.inl h))
    · exact .inr (.inl h)
  dots h hd := by
    rcases h with h | h
    · exact .inl (.inl ⟨_, .inl h, hd⟩)
    · exact .inr (.inl ⟨_, h.1, h.2, hd⟩)
  big h := .inl (.inr h)
  right ho hf hn := by
    have ho := uses_any ho (by simp) (by simp)
    rcases hf with hf | hf
    · exact .inl (.inl ⟨⟨_, ho⟩, _, .inl hf, absent_of hn⟩)
    · exact .inr ⟨⟨_, ho⟩, _, hf.1, hf.2, absent_of hn⟩
  flt h hf := .inl (.inl ⟨uses_any h (by simp) (by simp), hf⟩)
  coll h hc := .inl (.inr ⟨arr_uses_any h, hc⟩)
  hetero h := .inl (arr_uses_any h)
  div h hd := by
    have h := uses_any h (by simp) (by simp)
    rcases hd with rfl | rfl
    · exact .inl (.inl h)
    · exact .inl (.inr (.inl h))
  exp h := .inl (uses_any h (by simp) (by simp))
  exact {f} h hx := .inl (.inr (.inr ⟨f, (by rintro rfl; cases hx), (by rintro rfl; cases hx), (by rintro rfl; cases hx),
    uses_any h (by simp) (by simp)⟩))
  args {f} h hn := .inl ⟨f, hn, uses_any h (by simp) (by simp)⟩
  days h := .inl (uses_any h (by simp) (by simp))
  empty {f} h he := .inl ⟨⟨f, uses_any h (by simp) (by simp)⟩, he⟩
  counts {f} h hf := by
    have h := uses_any h (by simp) (by simp)
    rcases hf with rfl | rfl
    · exact .inr (.inl h)
    · exact .inr (.inr h)
  unsup {k k'} h hk h' hk' := by
    have h' : UsesArithmetic ts := by
      refine reckons_uses (uses_any h' ?_ ?_) hk'
      · rintro rfl; cases hk'
      · rintro rfl; cases hk'
    rcases h with h | h | h
    · exact .inl ⟨judges_uses h hk, .inr h'⟩
    · exact .inr ⟨h.2, .inr h'⟩
    · obtain ⟨pre, f, x, y, post, e, _, hx, _⟩ := h.2
      exact .inl ⟨judges_uses (k := .kNot) ⟨x, by rw [e]; simp, hx⟩ rfl, .inr h'⟩

theorem lit_dots_any {t : DataType} {v : Value} (h : (stockAny ts df d).lit t v) (hd : Dots v.text) : Mentions ts df v.text := by
  refine h.2.2 ?_ ?_
  · rintro rfl
    obtain ⟨b, rfl⟩ := h.2.1 rfl
    exact text_dots.2 b hd
  · rintro rfl; exact text_dots.1 hd

theorem paren_texts {k : TK} {x : JStr} (hx : ∀ t : JStr, Classified t k → t = x) : (l : List Token) →
    (∀ t ∈ l, Classified t.text t.kind) → (∀ t ∈ l, t.kind = k) → l.map Token.text = List.replicate l.length x
  | [], _, _ => rfl
  | t :: l, hc, hk => by
    have h1 := hc t (by simp)
    rw [hk t (by simp)] at h1
    rw [List.map_cons, List.length_cons, List.replicate_succ, hx _ h1,
      paren_texts hx l (fun u hu => hc u (by simp [hu])) (fun u hu => hk u (by simp [hu]))]

theorem lone_text (hc : Cut s ts) {e : List Token} (h : LoneToks (lex s) e) : LoneOperand ts := by
  obtain ⟨ls, xs, rs, rest, h1, h2, h3, h4, h5, h6⟩ := h
  have hcl : ∀ t ∈ lex s, Classified t.text t.kind := fun t ht => (cut_texts hc ht).2
  have hrest : ∀ {t : JStr}, (rest.map Token.text).head? = some t → ∃ u, rest.head? = some u ∧ t = u.text ∧
      Classified u.text u.kind := by
    intro t ht
    rw [List.head?_map] at ht
    obtain ⟨u, hu, rfl⟩ := Option.map_eq_some_iff.1 ht
    exact ⟨u, hu, rfl, hcl u (by rw [h1]; exact List.mem_append_right _ (List.mem_of_head? hu))⟩
  have hl : ls.map Token.text = List.replicate ls.length j!"(" := by
    refine paren_texts (k := .lparen) ?_ ls (fun t ht => hcl t (by rw [h1]; simp [ht])) h2
    intro t ht
    have key : ∀ p ∈ tokenTable, p.2 = .lparen → p.1 = j!"(" := by decide +kernel
    cases ht with
    | table h => exact key _ h rfl
  have hr : rs.map Token.text = List.replicate rs.length j!")" := by
    refine paren_texts (k := .rparen) ?_ rs (fun t ht => hcl t (by rw [h1]; simp [ht])) h3
    intro t ht
    have key : ∀ p ∈ tokenTable, p.2 = .rparen → p.1 = j!")" := by decide +kernel
    cases ht with
    | table h => exact key _ h rfl
  refine ⟨ls.length, rs.length, xs.map Token.text, rest.map Token.text, ?_, ?_, ?_, ?_, ?_⟩
  · rw [← cut_unique hc, h1]; simp only [List.map_append, hl, hr]
  · rcases h6 with h6 | h6
    · exact h6.1.le
    · exact h6.1.le
  · rcases h4 with ⟨x, rfl, hx⟩ | ⟨rfl, h4⟩
    · exact .inl ⟨x.text, rfl, operand_lexeme (hcl x (by rw [h1]; simp)) hx⟩
    · refine .inr ⟨rfl, fun h0 t ht hb => ?_⟩
      obtain ⟨u, hu, rfl, hcu⟩ := hrest ht
      have := begins_kind hcu hb
      rw [h4 (List.length_eq_zero_iff.1 h0) u hu] at this
      cases this
  · intro t ht ho
    obtain ⟨u, hu, rfl, hcu⟩ := hrest ht
    have := operator_kind hcu ho
    rw [h5 u hu] at this
    cases this
  · intro hlt ht
    obtain ⟨u, hu, e, hcu⟩ := hrest ht
    rcases h6 with h6 | h6
    · omega
    · refine h6.2 u hu ?_
      rw [← e] at hcu
      exact classified_one hcu (.table (by decide +kernel))

theorem parseAny_placed (hc : Cut s ts) {n : Node} (h : parseAny s df = .ok n) :
    Placed (Uses ts .kNot) n ∨ (LoneOperand ts ∧ ((∃ v, n = .unary .string v) ∨ ∃ f, n = .field (some f))) := by
  have H := text_supply (df := df) (d := []) hc
  unfold parseAny at h
  cases hp : rParse (lex s) with
  | none => rw [hp] at h; cases h
  | some x =>
    obtain ⟨t, y⟩ := x
    rw [hp] at h
    unfold rParse at hp
    cases hx : rExpr (parseFuel (lex s)) 0 [.eof] (.init (lex s)) with
    | none => rw [hx] at hp; cases hp
    | some z =>
      rw [hx] at hp
      have h1 := ((recovery_over H (no_eof hc) _).1 _ _ _ _ hx ⟨[], rfl, by simp⟩).1
      have hz : z.1 = t := by
        simp only at hp
        split at hp <;> cases hp <;> rfl
      rw [hz] at h1
      rcases listenR_placed df h1 n h with h | ⟨hl, h⟩
      · left
        have hk : (stockAny ts df []).kind .kNot = (Uses ts .kNot ∨ (TK.kNot = .kTo ∧ SkipsTo ts) ∨ (TK.kNot = .kIn ∧ SkipsIn ts)) := rfl
        rw [hk] at h
        simpa using h
      · refine .inr ⟨?_, h⟩
        have hx' : rExpr (parseFuel (lex s)) 0 [.eof] (.init (lex s)) = some (t, z.2) := by rw [hx, ← hz]
        exact lone_text hc (lone_toks hl _ _ _ _ hx')

theorem evaluateAny_cause (hc : Cut s ts) {e : Exn} (h : evaluateAny env s d df = .error e) :
    parseAny s df = .error e ∨ Cause ts df d false e ∨ Slip ts df d false e := by
  unfold evaluateAny at h
  cases hn : parseAny s df with
  | error e' => rw [hn] at h; cases h; exact .inl rfl
  | ok n =>
    right
    rw [hn] at h
    have he : evalBool env d n = .error e := h
    have hm := parseAny_made (text_supply (df := df) (d := d) hc) (no_eof hc)
      (fun hl => ⟨fun e => ⟨e, hl⟩, fun f e => .inr ⟨e, hl⟩⟩) hn
    rcases parseAny_placed hc hn with hpl | ⟨hl, hpl⟩
    · exact X_bool (explainsAny ts df d false) (fun hb => .inl ⟨rfl, .inl hb⟩)
        (fun hb t v hv hd => .inl (.inr ⟨rfl, .inl hb, _, lit_dots_any hv hd, hd⟩)) n hm hpl e he
    · rcases hpl with ⟨v, rfl⟩ | ⟨f, rfl⟩
      · rw [evalBool] at he
        exact X_unary (explainsAny ts df d false) hm (.inr ⟨rfl, hl⟩)
          (fun hd => .inr (.inr ⟨rfl, hl, _, lit_dots_any hm hd, hd⟩)) e he
      · rw [evalBool] at he; cases he

theorem evaluateArithAny_cause (hc : Cut s ts) {e : Exn} (h : evaluateArithAny env s d = .error e) :
    parseAny s none = .error e ∨ Cause ts none d true e ∨ Slip ts none d true e := by
  unfold evaluateArithAny at h
  cases hn : parseAny s none with
  | error e' => rw [hn] at h; cases h; exact .inl rfl
  | ok n =>
    right
    rw [hn] at h
    have he : evalArith env d n = .error e := h
    have hm := parseAny_made (text_supply (df := none) (d := d) hc) (no_eof hc)
      (fun hl => ⟨fun e => ⟨e, hl⟩, fun f e => .inr ⟨e, hl⟩⟩) hn
    refine (X_arith (explainsAny ts none d true) n hm (fun h0 => ?_)).1 e he
    obtain ⟨k, h1, h2⟩ := made_judges hm h0
    rcases h1 with h1 | h1 | h1
    · exact .inl ⟨judges_uses h1 h2, .inl rfl⟩
    · exact .inr ⟨h1.2, .inl rfl⟩
    · obtain ⟨pre, f, x, y, post, e, _, hx, _⟩ := h1.2
      exact .inl ⟨judges_uses (k := .kNot) ⟨x, by rw [e]; simp, hx⟩ rfl, .inl rfl⟩
end

end BoolParser
