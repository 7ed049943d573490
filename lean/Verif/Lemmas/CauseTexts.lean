import Verif.Lemmas.CauseEval
import Verif.Spec.Causes
import Verif.Props.Texts
/-!
# The causes of failures in texts and data
-/

namespace BoolParser
open Spec

/-! ### Data -/

theorem held_item {d : Data} {v x : Value} {xs : List Value} (h : Stores d v) (hv : listElems? v = some xs) (hx : x ∈ xs) :
    Stores d x ∧ (x = .null → NullElement d) := by
  cases v with
  | list ys => cases hv; exact ⟨.list h hx, fun e => ⟨xs, e ▸ hx, .inl h⟩⟩
  | coll ys => cases hv; exact ⟨.coll h hx, fun e => ⟨xs, e ▸ hx, .inr (.inl h)⟩⟩
  | arr b ys => cases hv; exact ⟨.arr h hx, fun e => ⟨xs, e ▸ hx, .inr (.inr ⟨b, h⟩)⟩⟩
  | _ => cases hv

theorem held_under {d : Data} {x v : Value} (h : Under x v) : Stores d v → v ≠ .null ∨ NullElement d →
    Stores d x ∧ (x = .null → NullElement d) := by
  induction h with
  | self => exact fun h hn => ⟨h, fun e => hn.resolve_left (fun h' => h' e)⟩
  | item hw hx _ ih =>
    intro h _
    have := held_item h hw hx
    refine ih this.1 ?_
    by_cases e : NullElement d
    · exact .inr e
    · exact .inl fun h => e (this.2 h)

theorem entries_range {d : Data} (h : EntriesInRange d) {k : JStr} {v : Value} (hv : (k, v) ∈ d) : InRange v := by
  induction d with
  | nil => cases hv
  | cons e es ih =>
    obtain ⟨k', w⟩ := e
    rw [EntriesInRange] at h
    rcases List.mem_cons.1 hv with hv | hv
    · cases hv; exact h.1
    · exact ih h.2 hv

theorem held_range {d : Data} (h : EntriesInRange d) {v : Value} (hv : Stores d v) : InRange v := by
  induction hv with
  | entry hv => exact entries_range h hv
  | inner _ hx ih => rw [InRange] at ih; exact entries_range ih hx
  | list _ hx ih => rw [InRange] at ih; exact (allInRange_iff _).1 ih _ hx
  | coll _ hx ih => rw [InRange] at ih; exact (allInRange_iff _).1 ih _ hx
  | arr _ hx ih => rw [InRange] at ih; exact (allInRange_iff _).1 ih _ hx

theorem mapGet_mem {d : Data} {k : JStr} {v : Value} (h : mapGet d k = some v) : (k, v) ∈ d := by
  obtain ⟨pre, post, rfl, _⟩ := (mapGet_iff d k v).1 h
  simp

theorem walkKeys_held {d0 : Data} : (ks : List JStr) → (d : Data) → (∀ k v, (k, v) ∈ d → Stores d0 v) → {v : Value} →
    walkKeys ks d = .ok (some v) → Stores d0 v ∧ v ≠ .null
  | [], _, _, _, h => by cases h
  | [k], d, hd, v, h => by
    rw [walkKeys] at h
    split at h
    · cases h
    · cases h
    · rename_i hn hm
      cases h
      exact ⟨hd _ _ (mapGet_mem hm), fun e => hn e⟩
  | k :: k2 :: ks, d, hd, v, h => by
    rw [walkKeys] at h
    split at h
    · rename_i es hm
      exact walkKeys_held (k2 :: ks) es (fun k v hv => .inner (hd _ _ (mapGet_mem hm)) hv) h
    · cases h

/-- The values a text and data can bring about. -/
def worldOf (ts : List JStr) (d : Data) : Givens where
  null := NullElement d ∨ ∃ t ∈ ts, BadDate t
  flt := HoldsDouble d
  empty := HoldsEmpty d
  coll := HoldsOther d
  big := ¬ EntriesInRange d ∨ Uses ts (.fn .len) ∨ Uses ts (.fn .daysElapsed)

theorem data_val {ts : List JStr} {d : Data} {f : JStr} {v : Value} (h : getValueFromMap f d = .ok (some v)) :
    Val (worldOf ts d) v := by
  have hv := walkKeys_held (d0 := d) (splitKey f) d (fun _ _ h => .entry h) h
  intro x hx
  have h := held_under hx hv.1 (.inl hv.2)
  cases x with
  | null => exact .inl (h.2 rfl)
  | flt t => exact .inr ⟨t, h.1⟩
  | dbl t => exact .inl ⟨t, h.1⟩
  | list xs => rintro rfl; exact .inl h.1
  | coll xs => exact ⟨.inl ⟨xs, h.1⟩, by rintro rfl; exact .inr h.1⟩
  | arr b xs => exact .inr ⟨b, xs, h.1⟩
  | int n =>
    by_cases hr : EntriesInRange d
    · exact .inl (by simpa [InRange] using held_range hr h.1)
    · exact .inr (.inl hr)
  | long n =>
    by_cases hr : EntriesInRange d
    · exact .inl (by simpa [InRange] using held_range hr h.1)
    · exact .inr (.inl hr)
  | _ => trivial

/-! ### Literals -/

theorem bad_date {t : JStr} (hc : IsDateText t) (h : parseDate t = none) : BadDate t := by
  refine .inl ⟨hc, fun d hd e => ?_⟩
  rw [e, parseDate_text hd] at h
  cases h

theorem bad_datetime {t : JStr} (hc : IsDateTimeText t) (h : parseDateTime t = none) : BadDate t := by
  refine .inr ⟨hc, fun x hd ht e => ?_⟩
  rw [e, parseDateTime_text hd ht.1 ht.2.1 ht.2.2.1 ht.2.2.2] at h
  cases h

theorem lit_val {ts : List JStr} {d : Data} {t : Token} (ht : t.text ∈ ts ∨ t = eofTok)
    (hc : t ≠ eofTok → Classified t.text t.kind) {dt : DataType} (hd : dt = tokType t ∨ dt = .string) {v : Value}
    (h : convertValue t.text dt = .ok v) : Val (worldOf ts d) v := by
  have hr := convertValue_range t.text dt v h
  have hkind : ∀ {k : TK}, k ≠ .eof → t.kind = k → t.text ∈ ts ∧ Classified t.text k := by
    intro k hk e
    have hn : t ≠ eofTok := by rintro rfl; exact hk e.symm
    exact ⟨ht.resolve_right hn, e ▸ hc hn⟩
  cases dt with
  | integer | long | decimal =>
    simp only [convertValue] at h
    split at h <;> cases h
    first | exact val_dec _ | exact val_int (.inl (by simpa [InRange] using hr)) | exact val_long (.inl (by simpa [InRange] using hr))
  | boolean => cases h; exact val_bool _
  | version => cases h; exact val_of trivial rfl
  | string =>
    rcases convertString h with rfl | ⟨q, r, _, _, rfl⟩ <;> exact val_str _
  | date =>
    have hk : t.kind = .date := by
      rcases hd with hd | hd
      · unfold tokType at hd
        split at hd <;> first | assumption | cases hd | skip
        rename_i hk
        unfold numericType at hd
        split at hd <;> cases hd
      · cases hd
    obtain ⟨hm, hcl⟩ := hkind (by decide) hk
    simp only [convertValue] at h
    cases hp : parseDate t.text with
    | some x => rw [hp] at h; cases h; exact val_of trivial rfl
    | none =>
      rw [hp] at h; cases h
      refine val_of (.inr ⟨t.text, hm, bad_date ?_ hp⟩) rfl
      cases hcl with
      | date h => exact h
      | table h => exact absurd rfl ((by decide +kernel : ∀ p ∈ tokenTable, p.2 ≠ TK.date) _ h)
  | datetime =>
    have hk : t.kind = .datetime := by
      rcases hd with hd | hd
      · unfold tokType at hd
        split at hd <;> first | assumption | cases hd | skip
        rename_i hk
        unfold numericType at hd
        split at hd <;> cases hd
      · cases hd
    obtain ⟨hm, hcl⟩ := hkind (by decide) hk
    simp only [convertValue] at h
    cases hp : parseDateTime t.text with
    | some x => rw [hp] at h; cases h; exact val_of trivial rfl
    | none =>
      rw [hp] at h; cases h
      refine val_of (.inr ⟨t.text, hm, bad_datetime ?_ hp⟩) rfl
      cases hcl with
      | datetime h => exact h
      | table h => exact absurd rfl ((by decide +kernel : ∀ p ∈ tokenTable, p.2 ≠ TK.datetime) _ h)

/-! ### The tokens of a text -/

theorem uses_iff {s : JStr} {ts : List JStr} (h : Cut s ts) {k : TK} : Uses ts k ↔ k ∈ kindsOf (lex s) := by
  constructor
  · rintro ⟨t, ht, hc⟩
    rw [← cut_unique h] at ht
    obtain ⟨u, hu, rfl⟩ := List.mem_map.1 ht
    exact List.mem_map.2 ⟨u, hu, classified_one (cut_texts h hu).2 hc⟩
  · intro hk
    obtain ⟨t, ht, rfl⟩ := List.mem_map.1 hk
    exact ⟨t.text, cut_texts h ht⟩

theorem field_iff {s : JStr} {ts : List JStr} (h : Cut s ts) {f : JStr} : (f ∈ ts ∧ Classified f .field) ↔
    ⟨.field, f⟩ ∈ (lex s).filter (fun t => t.kind = .field) := by
  rw [List.mem_filter]
  constructor
  · rintro ⟨ht, hc⟩
    rw [← cut_unique h] at ht
    obtain ⟨u, hu, rfl⟩ := List.mem_map.1 ht
    have : u.kind = .field := classified_one (cut_texts h hu).2 hc
    obtain ⟨k, x⟩ := u
    cases this
    exact ⟨hu, by simp⟩
  · rintro ⟨ht, _⟩
    exact cut_texts h ht

/-- What a text offers. -/
def stockOf (ts : List JStr) (df : Option JStr) (d : Data) : Stock where
  kind k := Uses ts k
  field f := (f ∈ ts ∧ Classified f .field) ∨ (df = some f ∧ OmitsOperand ts)
  lit t v := Val (worldOf ts d) v ∧ (t = .boolean → ∃ b, v = .bool b) ∧
    (t ≠ .boolean → v ≠ .null → Mentions ts df v.text)
  bound _ v := Val (worldOf ts d) v
  gap := df = none ∧ OmitsOperand ts

theorem opens_wants {t : Token} (hc : Classified t.text t.kind) (h : t.kind.opens = true) : WantsOperand t.text := by
  unfold WantsOperand
  generalize t.kind = k at *
  cases k <;> first | (cases h; done) | (simp [hc]; done) | skip
  · exact .inr (.inr (.inr (.inr (.inr (.inl ⟨_, hc⟩)))))
  · exact .inr (.inr (.inr (.inr (.inr (.inr ⟨_, hc⟩)))))

theorem follow_ends {t : Token} (hc : Classified t.text t.kind) (h : isEmptyFollow t.kind = true) : EndsOperand t.text := by
  unfold EndsOperand
  generalize hk : t.kind = k at *
  cases k with
  | arith o => exact .inr (.inr (.inr (.inr (.inl ⟨o, by simpa [isEmptyFollow] using h, hc⟩))))
  | cmp o => exact .inr (.inr (.inr (.inr (.inr ⟨o, hc⟩))))
  | eof =>
    cases hc with
    | table h => exact absurd rfl ((by decide +kernel : ∀ p ∈ tokenTable, p.2 ≠ TK.eof) _ h)
  | rparen | comma | kAnd | kOr => simp [hc]
  | _ => cases h

theorem gap_omits : (ts pre : List Token) → (∀ t ∈ pre ++ ts, Classified t.text t.kind) → (p : TK) →
    (pre = [] ∨ ∃ t, pre.getLast? = some t ∧ t.kind = p) →
    gapIn p (kindsOf ts) = true → OmitsOperand ((pre ++ ts).map Token.text) := by
  have wants : ∀ {pre ts : List Token} {p : TK}, (∀ t ∈ pre ++ ts, Classified t.text t.kind) →
      (pre = [] ∨ ∃ t, pre.getLast? = some t ∧ t.kind = p) → p.opens = true →
      ∀ x, (pre.map Token.text).getLast? = some x → WantsOperand x := by
    intro pre ts p hc hp ho x hx
    rw [List.getLast?_map] at hx
    rcases hp with rfl | ⟨t, ht, hk⟩
    · cases hx
    · rw [ht] at hx
      cases hx
      exact opens_wants (hc t (List.mem_append_left _ (List.mem_of_getLast? ht))) (hk ▸ ho)
  intro ts
  induction ts with
  | nil =>
    intro pre hc p hp h
    exact ⟨pre.map Token.text, [], by simp, wants hc hp h, by simp⟩
  | cons t ts ih =>
    intro pre hc p hp h
    simp only [kindsOf, List.map_cons, gapIn, Bool.or_eq_true, Bool.and_eq_true] at h
    rcases h with ⟨h1, h2⟩ | h
    · refine ⟨pre.map Token.text, (t :: ts).map Token.text, by simp, wants hc hp h1, ?_⟩
      rintro x ⟨⟩
      exact follow_ends (hc t (by simp)) h2
    · have := ih (pre ++ [t]) (by simpa using hc) t.kind (.inr ⟨t, by simp, rfl⟩) h
      simpa using this

theorem wants_opens {t : Token} (hc : Classified t.text t.kind) (h : WantsOperand t.text) : t.kind.opens = true := by
  rcases h with h | h | h | h | h | ⟨o, h⟩ | ⟨o, h⟩ <;> (rw [classified_one hc h]; rfl)

theorem ends_follow {t : Token} (hc : Classified t.text t.kind) (h : EndsOperand t.text) : isEmptyFollow t.kind = true := by
  rcases h with h | h | h | h | ⟨o, ho, h⟩ | ⟨o, h⟩
  · rw [classified_one hc h]; rfl
  · rw [classified_one hc h]; rfl
  · rw [classified_one hc h]; rfl
  · rw [classified_one hc h]; rfl
  · rw [classified_one hc h]; simpa [isEmptyFollow] using ho
  · rw [classified_one hc h]; rfl

theorem omits_gap : (pre post : List Token) → (∀ t ∈ pre ++ post, Classified t.text t.kind) → (p : TK) → (pre = [] → p.opens = true) →
    (∀ t, pre.getLast? = some t → WantsOperand t.text) → (∀ t, post.head? = some t → EndsOperand t.text) →
    gapIn p (kindsOf (pre ++ post)) = true
  | [], [], _, p, hp, _, _ => hp rfl
  | [], t :: post, hc, p, hp, _, he => by
    simp [kindsOf, gapIn, hp rfl, ends_follow (hc t (by simp)) (he t rfl)]
  | t :: pre, post, hc, p, _, hw, he => by
    have : gapIn t.kind (kindsOf (pre ++ post)) = true := by
      refine omits_gap pre post (fun u hu => hc u (by simp at hu ⊢; tauto)) t.kind ?_ ?_ he
      · rintro rfl; exact wants_opens (hc t (by simp)) (hw t rfl)
      · intro u hu
        refine hw u ?_
        cases pre with
        | nil => cases hu
        | cons x xs => rw [List.getLast?_cons_cons]; exact hu
    simp only [List.cons_append, kindsOf, List.map_cons, gapIn, Bool.or_eq_true]
    exact .inr this

section
variable {s : JStr} {ts : List JStr} {df : Option JStr} {d : Data} {env : Env}

theorem omits_iff (hc : Cut s ts) : OmitsOperand ts ↔ gapIn .lparen (kindsOf (lex s)) = true := by
  have ht : ∀ t ∈ lex s, Classified t.text t.kind := fun t ht => (cut_texts hc ht).2
  constructor
  · rintro ⟨pre, post, h, h1, h2⟩
    rw [← cut_unique hc] at h
    obtain ⟨a, b, hab, rfl, rfl⟩ := List.map_eq_append_iff.1 h
    rw [hab] at ht ⊢
    refine omits_gap a b ht .lparen (fun _ => rfl) (fun t h => h1 _ ?_) (fun t h => h2 _ ?_)
    · rw [List.getLast?_map, h]; rfl
    · rw [List.head?_map, h]; rfl
  · intro hg
    have := gap_omits (lex s) [] (by simpa using ht) .lparen (.inl rfl) hg
    rwa [List.nil_append, cut_unique hc] at this

theorem text_made (hc : Cut s ts) {n : Node} (h : parseExpression s df = .success n) : Made (stockOf ts df d) n := by
  have ht : ∀ t ∈ lex s, t.text ∈ ts ∧ Classified t.text t.kind := fun t ht => cut_texts hc ht
  have lits : ∀ {t : Token}, (t ∈ lex s ∨ t = eofTok) → ∀ {dt : DataType} {v : Value}, (dt = tokType t ∨ dt = .string) →
      convertValue t.text dt = .ok v → (stockOf ts df d).lit dt v := by
    intro t hm dt v hd hv
    refine ⟨lit_val (hm.imp (fun h => (ht t h).1) id) (fun hn => (ht t (hm.resolve_right hn)).2) hd hv, ?_, ?_⟩
    · rintro rfl; cases hv; exact ⟨_, rfl⟩
    · intro hb hn
      have key : FieldNames ts df v.text ∨ LiteralName ts v.text := by
        rcases hm with hm | rfl
        · exact name_lit (s := t.text) (.inl (ht t hm).1) (convert_name (ht t hm).1 (ht t hm).2 hd hv hb hn)
        · exact name_lit (.inr rfl) (.inl (convert_eofTok hd hv))
      rcases key with (h | h) | h
      · exact .inl h
      · exact .inr (.inl h)
      · exact .inr (.inr h)
  refine parseExpression_made (S := stockOf ts df d) ⟨fun hk => (by cases hk), fun v hv => lits (.inr rfl) (.inl rfl) hv,
    fun v hv => lits (.inr rfl) (.inr rfl) hv, fun v hv => (lits (.inr rfl) (.inl rfl) hv).1⟩ (fun t hm => ⟨⟨fun hk => .inl ⟨(ht t hm).1, hk ▸ (ht t hm).2⟩,
    fun v hv => lits (.inl hm) (.inl rfl) hv, fun v hv => lits (.inl hm) (.inr rfl) hv,
    fun v hv => (lits (.inl hm) (.inl rfl) hv).1⟩, t.text, (ht t hm).1, (ht t hm).2⟩) ?_ h
  intro hg
  have := gap_omits (lex s) [] (by simpa using fun t h => (ht t h).2) .lparen (.inl rfl) hg
  rw [List.nil_append, cut_unique hc] at this
  exact ⟨fun e => ⟨e, this⟩, fun f e => .inr ⟨e, this⟩⟩

theorem looks_uses {k : TK} (h : Uses ts k) (hk : k.looks = true) : UsesValues ts := by
  unfold UsesValues
  cases k <;> first | (cases hk; done) | (simp [h]; done) | skip
  · exact .inr (.inr (.inr (.inr (.inr (.inr ⟨_, h⟩)))))
  · exact .inr (.inr (.inr (.inr (.inr (.inl ⟨_, h⟩)))))
  · exact .inl ⟨_, h⟩

theorem judges_uses {k : TK} (h : Uses ts k) (hk : k.judges = true) : UsesLogic ts := by
  unfold UsesLogic
  cases k <;> first | (cases hk; done) | (simp [h]; done) | skip
  exact .inl ⟨_, h⟩

theorem reckons_uses {k : TK} (h : Uses ts k) (hk : k.reckons = true) : UsesArithmetic ts := by
  unfold UsesArithmetic
  cases k <;> first | (cases hk; done) | skip
  · exact .inr ⟨_, h⟩
  · exact .inl ⟨_, h⟩

theorem arr_uses {op : ArrOp} (h : Uses ts op.kind) : UsesContains ts := by
  cases op
  · exact .inl h
  · exact .inr h

theorem explains (ts : List JStr) (df : Option JStr) (d : Data) (a : Bool) :
    Explains (stockOf ts df d) (worldOf ts d) d (Cause ts df d a) where
  lit h := h.1
  bound h := h
  litBool h := h.2.1 rfl
  data h := data_val h
  type h hk := looks_uses h hk
  missing := trivial
  gap h := .inr (.inr h)
  null h := h.elim .inl (fun h => .inr (.inl h))
  dots h hd := .inl ⟨_, h, hd⟩
  big h := .inr h
  right ho hf hn := .inl ⟨⟨_, ho⟩, _, hf, absent_of hn⟩
  flt h hf := .inl ⟨h, hf⟩
  coll h hc := .inr ⟨arr_uses h, hc⟩
  hetero h := arr_uses h
  div h hd := by
    rcases hd with rfl | rfl
    · exact .inl h
    · exact .inr (.inl h)
  exp h := h
  exact {f} h hx := .inr (.inr ⟨f, (by rintro rfl; cases hx), (by rintro rfl; cases hx), (by rintro rfl; cases hx), h⟩)
  args {f} h hn := ⟨f, hn, h⟩
  days h := h
  empty {f} h he := ⟨⟨f, h⟩, he⟩
  counts {f} h hf := by
    rcases hf with rfl | rfl
    · exact .inr (.inl h)
    · exact .inr (.inr h)
  unsup h hk h' hk' := ⟨judges_uses h hk, .inr (reckons_uses h' hk')⟩

theorem text_dots : ¬ Dots (Value.text .null) ∧ ∀ b, ¬ Dots (Value.text (.bool b)) := by
  refine ⟨fun h => ?_, fun b h => ?_⟩
  · exact absurd (h.2 'n' (by decide +kernel)) (by decide)
  · cases b
    · exact absurd (h.2 'f' (by decide +kernel)) (by decide)
    · exact absurd (h.2 't' (by decide +kernel)) (by decide)

theorem lit_dots {t : DataType} {v : Value} (h : (stockOf ts df d).lit t v) (hd : Dots v.text) : Mentions ts df v.text := by
  refine h.2.2 ?_ ?_
  · rintro rfl
    obtain ⟨b, rfl⟩ := h.2.1 rfl
    exact text_dots.2 b hd
  · rintro rfl; exact text_dots.1 hd

theorem evaluate_cause (hc : Cut s ts) {e : Exn} (h : evaluate env s d df = .failure e) :
    parseExpression s df = .failure e ∨ Cause ts df d false e := by
  unfold evaluate at h
  cases hn : parseExpression s df with
  | failure e' => rw [hn] at h; simp only [Outcome.andThen] at h; cases h; exact .inl rfl
  | syntaxError => rw [hn] at h; cases h
  | success n =>
    right
    have hm := text_made (d := d) hc hn
    have hpl := parseExpression_placed hn
    have hcl : ∀ t ∈ lex s, Classified t.text t.kind := fun t ht => (cut_texts hc ht).2
    rw [hn] at h
    simp only [Outcome.andThen] at h
    have he : evalBool env d n = .error e := by
      cases he : evalBool env d n with
      | error e' => rw [he] at h; cases h; rfl
      | ok x => rw [he] at h; cases h
    rcases hpl with hpl | ⟨⟨m, ks, hl, hk⟩, hpl⟩
    · have hu : TK.kNot ∈ kindsOf (lex s) → UsesTruth ts := fun hb => by
        obtain ⟨t, ht, hk⟩ := List.mem_map.1 hb
        have := cut_texts hc ht
        exact .inl ⟨t.text, this.1, hk ▸ this.2⟩
      exact X_bool (explains ts df d false) (fun hb => ⟨rfl, hu hb⟩)
        (fun hb t v hv hd => .inr ⟨rfl, hu hb, _, lit_dots hv hd, hd⟩) n hm hpl e he
    · have hs : UsesTruth ts := by
        have := single_of hcl hl hk
        rw [cut_unique hc] at this
        exact .inr this
      rcases hpl with ⟨v, rfl⟩ | ⟨f, rfl⟩
      · rw [evalBool] at he
        exact X_unary (explains ts df d false) hm ⟨rfl, hs⟩ (fun hd => .inr ⟨rfl, hs, _, lit_dots hm hd, hd⟩) e he
      · rw [evalBool] at he; cases he

theorem evaluateArith_cause (hc : Cut s ts) {e : Exn} (h : evaluateArith env s d = .failure e) :
    parseExpression s none = .failure e ∨ Cause ts none d true e := by
  unfold evaluateArith at h
  cases hn : parseExpression s none with
  | failure e' => rw [hn] at h; simp only [Outcome.andThen] at h; cases h; exact .inl rfl
  | syntaxError => rw [hn] at h; cases h
  | success n =>
    right
    have hm := text_made (d := d) hc hn
    rw [hn] at h
    simp only [Outcome.andThen] at h
    have he : evalArith env d n = .error e := by
      cases he : evalArith env d n with
      | error e' => rw [he] at h; cases h; rfl
      | ok x => rw [he] at h; cases h
    exact (X_arith (explains ts none d true) n hm (fun h0 => by
      obtain ⟨k, h1, h2⟩ := made_judges hm h0
      exact ⟨judges_uses h1 h2, .inl rfl⟩)).1 e he
end

end BoolParser
