import Verif.Spec.Grammar
import Verif.Lemmas.FuelEnough
/-!
# The parser accepts exactly the published grammar
-/

namespace BoolParser

theorem binTok_between {k : TK} {b : BinTok} (h : binTok k = some b) : k ∈ betweenKinds := by
  cases k with
  | cmp op => cases op <;> simp [betweenKinds]
  | arith op => cases op <;> simp [betweenKinds]
  | kAnd => simp [betweenKinds]
  | kOr => simp [betweenKinds]
  | _ => cases h

theorem lit_types {k : TK} (h : isLitKind k = true) : k ∈ typesKinds := by
  cases k <;> first | (cases h; done) | simp [typesKinds]

theorem num_kinds {k : TK} : isNumKind k = true ↔ k ∈ numericKinds := by
  cases k <;> simp [isNumKind, numericKinds]

/-- The tokens `ts` are `c` followed by `r`, with the kinds of `c` as in `P`. -/
def Takes (P : List TK → Prop) (ts r : List Token) : Prop := ∃ c, ts = c ++ r ∧ P (c.map Token.kind)

/-- `(',' expression)* ')'`. -/
def MoreKinds (ks : List TK) : Prop :=
  ∃ es : List (List TK), (∀ x ∈ es, Expression x) ∧ ks = es.flatMap (fun x => .comma :: x) ++ [.rparen]

/-- `wordlist`. -/
def ListKinds (ks : List TK) : Prop :=
  ∃ e es, Expression e ∧ (∀ x ∈ es, Expression x) ∧ ks = wordlist e es

theorem fieldTail_takes {f : Nat} {t : Token} {ts : List Token} {x : Tree × List Token}
    (ha : ∀ x, pAfterField f t ts = some x → Takes (fun ks => Expression (.field :: ks)) ts x.2)
    (h : fieldTail f t ts = some x) : Takes (fun ks => Expression (.field :: ks)) ts x.2 := by
  match ts with
  | [] => rw [fieldTail] at h; cases h; exact ⟨[], rfl, .types (by simp [typesKinds])⟩
  | [lo] =>
    simp only [fieldTail] at h
    cases hn : isNumKind lo.kind
    · rw [hn] at h; exact ha x (by simpa using h)
    · rw [hn] at h; cases h
  | [lo, to_] =>
    simp only [fieldTail] at h
    cases hn : isNumKind lo.kind
    · rw [hn] at h; exact ha x (by simpa using h)
    · rw [hn] at h; cases h
  | lo :: to_ :: hi :: ts' =>
    simp only [fieldTail] at h
    cases hn : isNumKind lo.kind
    · rw [hn] at h; exact ha x (by simpa using h)
    · rw [hn, if_pos rfl] at h
      split at h
      · rename_i hh
        cases h
        refine ⟨[lo, to_, hi], rfl, ?_⟩
        simp only [List.map, hh.1]
        exact .to_ (num_kinds.1 hn) (num_kinds.1 hh.2)
      · cases h

theorem parse_takes (f : Nat) :
    (∀ p ts x, pExpr f p ts = some x → Takes Expression ts x.2) ∧
    (∀ ts x, pPrimary f ts = some x → Takes Expression ts x.2) ∧
    (∀ t ts x, pAfterField f t ts = some x → Takes (fun ks => Expression (.field :: ks)) ts x.2) ∧
    (∀ p l ts x, pLoop f p l ts = some x → Takes (fun ks => ∀ k, Expression k → Expression (k ++ ks)) ts x.2) ∧
    (∀ ts x, pWordlist f ts = some x → Takes ListKinds ts x.2) ∧
    (∀ ts x, pMore f ts = some x → Takes MoreKinds ts x.2) := by
  induction f with
  | zero => refine ⟨?_, ?_, ?_, ?_, ?_, ?_⟩ <;> intros <;> rename_i h <;> cases h
  | succ f ih =>
    obtain ⟨hE, hP, hA, hL, hW, hM⟩ := ih
    refine ⟨?_, ?_, ?_, ?_, ?_, ?_⟩
    · intro p ts x h
      rw [pExpr] at h
      cases e : pPrimary f ts with
      | none => simp [e] at h
      | some y =>
        simp only [e] at h
        obtain ⟨c, hc, h1⟩ := hP _ _ e
        obtain ⟨c', hc', h2⟩ := hL _ _ _ _ h
        exact ⟨c ++ c', by rw [hc, hc', List.append_assoc], by rw [List.map_append]; exact h2 _ h1⟩
    · intro ts x h
      cases ts with
      | nil => rw [pPrimary] at h; cases h; exact ⟨[], rfl, .omitted⟩
      | cons t ts =>
        by_cases hf : t.kind = .field
        · rw [pPrimary_field _ _ _ hf] at h
          obtain ⟨c, hc, h1⟩ := fieldTail_takes (hA t ts) h
          exact ⟨t :: c, by rw [hc]; rfl, by rw [List.map, hf]; exact h1⟩
        rw [pPrimary_cons] at h
        cases hk : t.kind with
        | field => exact absurd hk hf
        | lparen =>
          simp only [hk] at h
          cases e : pExpr f 0 ts with
          | none => simp [e] at h
          | some y =>
            simp only [e] at h
            obtain ⟨e1, rest⟩ := y
            cases rest with
            | nil => cases h
            | cons r ts' =>
              simp only at h
              by_cases hr : r.kind = .rparen
              · rw [if_pos hr] at h; cases h
                obtain ⟨c, hc, h1⟩ := hE _ _ _ e
                exact ⟨t :: (c ++ [r]), by rw [hc]; simp, by simp only [List.map, List.map_append, hk, hr]; exact .paren h1⟩
              · rw [if_neg hr] at h; cases h
        | kNot =>
          simp only [hk] at h
          cases e : pExpr f 15 ts with
          | none => simp [e] at h
          | some y =>
            simp only [e] at h; cases h
            obtain ⟨c, hc, h1⟩ := hE _ _ _ e
            exact ⟨t :: c, by rw [hc]; rfl, by simp only [List.map, hk]; exact .not_ h1⟩
        | arith op =>
          cases op with
          | sub =>
            simp only [hk] at h
            cases e : pExpr f 13 ts with
            | none => simp [e] at h
            | some y =>
              simp only [e] at h; cases h
              obtain ⟨c, hc, h1⟩ := hE _ _ _ e
              exact ⟨t :: c, by rw [hc]; rfl, by simp only [List.map, hk]; exact .minus h1⟩
          | _ => simp only [hk] at h; cases h; exact ⟨[], rfl, .omitted⟩
        | fn g =>
          simp only [hk] at h
          cases e : pWordlist f ts with
          | none => simp [e] at h
          | some y =>
            simp only [e] at h; cases h
            obtain ⟨c, hc, e1, es, h1, h2, h3⟩ := hW _ _ e
            exact ⟨t :: c, by rw [hc]; rfl, by simp only [List.map, hk, h3]; exact .func h1 h2⟩
        | _ =>
          simp only [hk] at h
          first
          | (cases h; done)
          | cases h
          first
          | done
          | exact ⟨[], rfl, .omitted⟩
          | exact ⟨[t], rfl, by simp only [List.map, hk]; exact .types (lit_types rfl)⟩
    · intro t ts x h
      cases ts with
      | nil => rw [pAfterField] at h; cases h; exact ⟨[], rfl, .types (by simp [typesKinds])⟩
      | cons v vs =>
        rw [pAfterField_cons] at h
        cases hk : v.kind with
        | kIn =>
          simp only [hk] at h
          cases e : pWordlist f vs with
          | none => simp [e] at h
          | some y =>
            simp only [e] at h; cases h
            obtain ⟨c, hc, e1, es, h1, h2, h3⟩ := hW _ _ e
            exact ⟨v :: c, by rw [hc]; rfl, by simp only [List.map, hk, h3]; exact .in_ h1 h2⟩
        | kNot =>
          simp only [hk] at h
          cases vs with
          | nil => cases h
          | cons w ws =>
            simp only at h
            by_cases hv : w.kind = .kIn
            · simp only [hv, if_true] at h
              cases e : pWordlist f ws with
              | none => simp [e] at h
              | some y =>
                simp only [e] at h; cases h
                obtain ⟨c, hc, e1, es, h1, h2, h3⟩ := hW _ _ e
                exact ⟨v :: w :: c, by rw [hc]; rfl, by simp only [List.map, hk, hv, h3]; exact .notIn h1 h2⟩
            · simp [hv] at h
        | cAll =>
          simp only [hk] at h
          cases e : pWordlist f vs with
          | none => simp [e] at h
          | some y =>
            simp only [e] at h; cases h
            obtain ⟨c, hc, e1, es, h1, h2, h3⟩ := hW _ _ e
            exact ⟨v :: c, by rw [hc]; rfl, by simp only [List.map, hk, h3]; exact .array (by simp [arrayKinds]) h1 h2⟩
        | cAny =>
          simp only [hk] at h
          cases e : pWordlist f vs with
          | none => simp [e] at h
          | some y =>
            simp only [e] at h; cases h
            obtain ⟨c, hc, e1, es, h1, h2, h3⟩ := hW _ _ e
            exact ⟨v :: c, by rw [hc]; rfl, by simp only [List.map, hk, h3]; exact .array (by simp [arrayKinds]) h1 h2⟩
        | _ => simp only [hk] at h; cases h; exact ⟨[], rfl, .types (by simp [typesKinds])⟩
    · intro p l ts x h
      cases ts with
      | nil => rw [pLoop] at h; cases h; exact ⟨[], rfl, fun k hk => by simpa using hk⟩
      | cons t ts =>
        rw [pLoop] at h
        cases hb : binTok t.kind with
        | none => simp only [hb] at h; cases h; exact ⟨[], rfl, fun k hk => by simpa using hk⟩
        | some b =>
          simp only [hb] at h
          by_cases hp : p ≤ b.prec
          · simp only [if_pos hp] at h
            cases e : pExpr f (b.prec + 1) ts with
            | none => simp [e] at h
            | some y =>
              simp only [e] at h
              obtain ⟨c, hc, h1⟩ := hE _ _ _ e
              obtain ⟨c', hc', h2⟩ := hL _ _ _ _ h
              refine ⟨t :: (c ++ c'), by rw [hc, hc']; simp, fun k hk => ?_⟩
              have := h2 _ (.between (binTok_between hb) hk h1)
              simpa using this
          · simp only [if_neg hp] at h; cases h; exact ⟨[], rfl, fun k hk => by simpa using hk⟩
    · intro ts x h
      cases ts with
      | nil => cases h
      | cons t ts =>
        rw [pWordlist] at h
        by_cases hk : t.kind = .lparen
        · simp only [if_pos hk] at h
          cases e : pExpr f 0 ts with
          | none => simp [e] at h
          | some y =>
            simp only [e] at h
            cases e2 : pMore f y.2 with
            | none => simp [e2] at h
            | some z =>
              simp only [e2] at h; cases h
              obtain ⟨c, hc, h1⟩ := hE _ _ _ e
              obtain ⟨c', hc', es, h2, h3⟩ := hM _ _ e2
              refine ⟨t :: (c ++ c'), by rw [hc, hc']; simp, c.map Token.kind, es, h1, h2, ?_⟩
              simp only [List.map, List.map_append, hk, h3, wordlist]
        · simp [hk] at h
    · intro ts x h
      cases ts with
      | nil => cases h
      | cons t ts =>
        rw [pMore] at h
        by_cases hk : t.kind = .rparen
        · simp only [if_pos hk] at h; cases h
          exact ⟨[t], rfl, [], by simp, by simp [hk]⟩
        · simp only [if_neg hk] at h
          by_cases hk2 : t.kind = .comma
          · simp only [if_pos hk2] at h
            cases e : pExpr f 0 ts with
            | none => simp [e] at h
            | some y =>
              simp only [e] at h
              cases e2 : pMore f y.2 with
              | none => simp [e2] at h
              | some z =>
                simp only [e2] at h; cases h
                obtain ⟨c, hc, h1⟩ := hE _ _ _ e
                obtain ⟨c', hc', es, h2, h3⟩ := hM _ _ e2
                refine ⟨t :: (c ++ c'), by rw [hc, hc']; simp, c.map Token.kind :: es, ?_, ?_⟩
                · intro x hx
                  rcases List.mem_cons.1 hx with rfl | hx
                  · exact h1
                  · exact h2 x hx
                · simp [hk2, h3]
          · simp [hk2] at h

/-- What the parser accepts is an expression of the grammar. -/
theorem parse_sound {ts : List Token} {t : Tree} (h : parseTokens ts = some t) : Expression (ts.map Token.kind) := by
  obtain ⟨f, hf⟩ := parseTokens_iff.1 h
  obtain ⟨c, hc, h1⟩ := (parse_takes f).1 _ _ _ hf
  rw [hc, List.append_nil]; exact h1

/-! ## Completeness -/

/-- `(',' expression)* ')'`, on tokens. -/
inductive More : List Token → Prop
  | done {u} : u.kind = .rparen → More [u]
  | more {u c r} : u.kind = .comma → Expression (c.map Token.kind) → More r → More (u :: (c ++ r))

/-- `wordlist`, on tokens. -/
inductive ItemKinds : List Token → Prop
  | mk {u c r} : u.kind = .lparen → Expression (c.map Token.kind) → More r → ItemKinds (u :: (c ++ r))

/-- The alternatives without an operator outside parentheses, on tokens. -/
inductive Atom : List Token → Prop
  | paren {u c v} : u.kind = .lparen → Expression (c.map Token.kind) → v.kind = .rparen → Atom (u :: (c ++ [v]))
  | func {u f r} : u.kind = .fn f → ItemKinds r → Atom (u :: r)
  | types {u} : u.kind ∈ typesKinds → Atom [u]
  | omitted : Atom []
  | to_ {u lo v hi} : u.kind = .field → lo.kind ∈ numericKinds → v.kind = .kTo → hi.kind ∈ numericKinds →
      Atom [u, lo, v, hi]
  | in_ {u v r} : u.kind = .field → v.kind = .kIn → ItemKinds r → Atom (u :: v :: r)
  | notIn {u v w r} : u.kind = .field → v.kind = .kNot → w.kind = .kIn → ItemKinds r → Atom (u :: v :: w :: r)
  | array {u v r} : u.kind = .field → v.kind ∈ arrayKinds → ItemKinds r → Atom (u :: v :: r)

/-- The shape in which the parser reads: prefix operators, atoms, operators between them; a minus with nothing
before it is a prefix. -/
inductive Chain : List Token → Prop
  | atom {a} : Atom a → Chain a
  | pre {u r} : u.kind = .kNot ∨ u.kind = .arith .sub → Chain r → Chain (u :: r)
  | bin {a u r} : Atom a → u.kind ∈ betweenKinds → ¬ (a = [] ∧ u.kind = .arith .sub) → Chain r →
      Chain (a ++ u :: r)

theorem Chain.join {l r : List Token} {u : Token} (hu : u.kind ∈ betweenKinds) (hl : Chain l) (hr : Chain r) :
    Chain (l ++ u :: r) := by
  induction hl with
  | @atom a ha =>
    by_cases h : a = [] ∧ u.kind = .arith .sub
    · rw [h.1]; exact .pre (.inr h.2) hr
    · exact .bin ha hu h hr
  | pre hp _ ih => exact .pre hp ih
  | bin ha ho hn _ ih => rw [List.append_assoc, List.cons_append]; exact .bin ha ho hn ih

theorem more_of {es : List (List TK)} (h : ∀ x ∈ es, Expression x) :
    ∀ {ts : List Token}, ts.map Token.kind = es.flatMap (fun x => .comma :: x) ++ [.rparen] → More ts := by
  induction es with
  | nil =>
    intro ts hs
    obtain ⟨u, us, rfl, hu, hus⟩ := List.map_eq_cons_iff.1 (by simpa using hs : ts.map Token.kind = .rparen :: [])
    rw [List.map_eq_nil_iff] at hus; subst hus
    exact .done hu
  | cons x es ih =>
    intro ts hs
    have hs' : ts.map Token.kind = .comma :: (x ++ (es.flatMap (fun x => .comma :: x) ++ [.rparen])) := by
      simpa using hs
    obtain ⟨u, us, rfl, hu, hus⟩ := List.map_eq_cons_iff.1 hs'
    obtain ⟨c, r, rfl, hc, hr⟩ := List.map_eq_append_iff.1 hus
    exact .more hu (hc ▸ h x (by simp)) (ih (fun y hy => h y (by simp [hy])) hr)

theorem items_of {e : List TK} {es : List (List TK)} (he : Expression e) (h : ∀ x ∈ es, Expression x)
    {ts : List Token} (hs : ts.map Token.kind = wordlist e es) : ItemKinds ts := by
  obtain ⟨u, us, rfl, hu, hus⟩ := List.map_eq_cons_iff.1 hs
  obtain ⟨c, r, rfl, hc, hr⟩ := List.map_eq_append_iff.1 hus
  exact .mk hu (hc ▸ he) (more_of h hr)

theorem chain_of {ks : List TK} (h : Expression ks) : ∀ {ts : List Token}, ts.map Token.kind = ks → Chain ts := by
  induction h with
  | paren h _ =>
    intro ts hs
    obtain ⟨u, us, rfl, hu, hus⟩ := List.map_eq_cons_iff.1 hs
    obtain ⟨c, r, rfl, hc, hr⟩ := List.map_eq_append_iff.1 hus
    obtain ⟨v, vs, rfl, hv, hvs⟩ := List.map_eq_cons_iff.1 hr
    rw [List.map_eq_nil_iff] at hvs; subst hvs
    exact .atom (.paren hu (hc ▸ h) hv)
  | not_ _ ih =>
    intro ts hs
    obtain ⟨u, us, rfl, hu, hus⟩ := List.map_eq_cons_iff.1 hs
    exact .pre (.inl hu) (ih hus)
  | minus _ ih =>
    intro ts hs
    obtain ⟨u, us, rfl, hu, hus⟩ := List.map_eq_cons_iff.1 hs
    exact .pre (.inr hu) (ih hus)
  | between ho _ _ ihl ihr =>
    intro ts hs
    obtain ⟨l, r, rfl, hl, hr⟩ := List.map_eq_append_iff.1 hs
    obtain ⟨u, us, rfl, hu, hus⟩ := List.map_eq_cons_iff.1 hr
    exact .join (hu ▸ ho) (ihl hl) (ihr hus)
  | func he hes _ _ =>
    intro ts hs
    obtain ⟨u, us, rfl, hu, hus⟩ := List.map_eq_cons_iff.1 hs
    exact .atom (.func hu (items_of he hes hus))
  | types hk =>
    intro ts hs
    obtain ⟨u, us, rfl, hu, hus⟩ := List.map_eq_cons_iff.1 hs
    rw [List.map_eq_nil_iff] at hus; subst hus
    exact .atom (.types (hu ▸ hk))
  | omitted => intro ts hs; rw [List.map_eq_nil_iff] at hs; subst hs; exact .atom .omitted
  | to_ h1 h2 =>
    intro ts hs
    obtain ⟨u, us, rfl, hu, hus⟩ := List.map_eq_cons_iff.1 hs
    obtain ⟨lo, us, rfl, hlo, hus⟩ := List.map_eq_cons_iff.1 hus
    obtain ⟨v, us, rfl, hv, hus⟩ := List.map_eq_cons_iff.1 hus
    obtain ⟨hi, us, rfl, hhi, hus⟩ := List.map_eq_cons_iff.1 hus
    rw [List.map_eq_nil_iff] at hus; subst hus
    exact .atom (.to_ hu (hlo ▸ h1) hv (hhi ▸ h2))
  | in_ he hes _ _ =>
    intro ts hs
    obtain ⟨u, us, rfl, hu, hus⟩ := List.map_eq_cons_iff.1 hs
    obtain ⟨v, us, rfl, hv, hus⟩ := List.map_eq_cons_iff.1 hus
    exact .atom (.in_ hu hv (items_of he hes hus))
  | notIn he hes _ _ =>
    intro ts hs
    obtain ⟨u, us, rfl, hu, hus⟩ := List.map_eq_cons_iff.1 hs
    obtain ⟨v, us, rfl, hv, hus⟩ := List.map_eq_cons_iff.1 hus
    obtain ⟨w, us, rfl, hw, hus⟩ := List.map_eq_cons_iff.1 hus
    exact .atom (.notIn hu hv hw (items_of he hes hus))
  | array ho he hes _ _ =>
    intro ts hs
    obtain ⟨u, us, rfl, hu, hus⟩ := List.map_eq_cons_iff.1 hs
    obtain ⟨v, us, rfl, hv, hus⟩ := List.map_eq_cons_iff.1 hus
    exact .atom (.array hu (hv ▸ ho) (items_of he hes hus))

/-- What may follow an expression: nothing, `)` or `,`. -/
def Ends (rest : List Token) : Prop := ∀ u ∈ rest.head?, u.kind = .rparen ∨ u.kind = .comma

theorem between_binTok {k : TK} (h : k ∈ betweenKinds) : ∃ b, binTok k = some b := by
  simp only [betweenKinds, List.mem_cons, List.not_mem_nil, or_false] at h
  rcases h with rfl | rfl | rfl | rfl | rfl | rfl | rfl | rfl | rfl | rfl | rfl | rfl | rfl | rfl <;> exact ⟨_, rfl⟩

/-- What `expression(p)` leaves: the rest, or a weaker operator, a chain and the rest. -/
def Left (n p : Nat) (rest r : List Token) : Prop :=
  r = rest ∨ ∃ u us b, r = u :: (us ++ rest) ∧ binTok u.kind = some b ∧ b.prec < p ∧ Chain us ∧ us.length < n

/-- `expression(p)` reads a chain. -/
def ReadsKinds (ts : List Token) : Prop :=
  ∀ rest, Ends rest → ∀ p, ∃ f t r, pExpr f p (ts ++ rest) = some (t, r) ∧ Left ts.length p rest r

theorem loop_stop {p : Nat} {l : Tree} {rest : List Token} (h : Ends rest) : pLoop 1 p l rest = some (l, rest) := by
  cases rest with
  | nil => rfl
  | cons u us =>
    rw [pLoop]
    rcases h u rfl with hu | hu <;> rw [hu] <;> rfl

theorem loop_reads {n : Nat} (hA : ∀ ts, ts.length < n → Chain ts → ReadsKinds ts) {rest : List Token} (hr : Ends rest) :
    ∀ m us u, us.length < m → m ≤ n → Chain us → u.kind ∈ betweenKinds → ∀ p l,
      ∃ f t r, pLoop f p l (u :: (us ++ rest)) = some (t, r) ∧ Left m p rest r := by
  intro m
  induction m using Nat.strong_induction_on with
  | _ m ih =>
    intro us u hm hn hc hu p l
    obtain ⟨b, hb⟩ := between_binTok hu
    by_cases hp : p ≤ b.prec
    · obtain ⟨f, t, r, hf, hl⟩ := hA us (by omega) hc rest hr (b.prec + 1)
      rcases hl with rfl | ⟨v, vs, b', rfl, hv, _, hcv, hlen⟩
      · refine ⟨f + 1 + 1, b.mk l t, r, ?_, .inl rfl⟩
        rw [pLoop, hb]
        simp only [if_pos hp]
        rw [pExpr_mono (Nat.le_succ _) hf]
        exact pLoop_mono (by omega) (loop_stop hr)
      · obtain ⟨g, t', r', hg, hl'⟩ := ih us.length hm vs v hlen (by omega) hcv (binTok_between hv) p (b.mk l t)
        refine ⟨max f g + 1, t', r', ?_, ?_⟩
        · rw [pLoop, hb]
          simp only [if_pos hp]
          rw [pExpr_mono (Nat.le_max_left _ _) hf]
          exact pLoop_mono (Nat.le_max_right _ _) hg
        · rcases hl' with h | ⟨w, ws, b2, h1, h2, h3, h4, h5⟩
          · exact .inl h
          · exact .inr ⟨w, ws, b2, h1, h2, h3, h4, by omega⟩
    · exact ⟨1, l, _, by rw [pLoop, hb]; simp only [if_neg hp], .inr ⟨u, us, b, rfl, hb, by omega, hc, hm⟩⟩

theorem reads_whole {n : Nat} (hA : ∀ ts, ts.length < n → Chain ts → ReadsKinds ts) {c rest : List Token}
    (hn : c.length < n) (hc : Expression (c.map Token.kind)) (hr : Ends rest) :
    ∃ f t, pExpr f 0 (c ++ rest) = some (t, rest) := by
  obtain ⟨f, t, r, hf, hl⟩ := hA c hn (chain_of hc rfl) rest hr 0
  rcases hl with rfl | ⟨_, _, _, _, _, h, _⟩
  · exact ⟨f, t, hf⟩
  · omega

theorem more_reads_kinds {n : Nat} (hA : ∀ ts, ts.length < n → Chain ts → ReadsKinds ts) {r : List Token} (h : More r) :
    r.length ≤ n → ∀ rest, ∃ f es, pMore f (r ++ rest) = some (es, rest) := by
  induction h with
  | @done u hu => intro _ rest; exact ⟨1, [], by rw [List.cons_append, List.nil_append, pMore, if_pos hu]⟩
  | @more u c r hu hc hm ih =>
    intro hn rest
    simp only [List.length_cons, List.length_append] at hn
    obtain ⟨g, es, hg⟩ := ih (by omega) rest
    have he : Ends (r ++ rest) := by
      cases hm with
      | done h => intro v hv; cases hv; exact .inl h
      | more h _ _ => intro v hv; cases hv; exact .inr h
    obtain ⟨f, t, hf⟩ := reads_whole hA (by omega) hc he
    refine ⟨max f g + 1, t :: es, ?_⟩
    have hu' : ¬ u.kind = .rparen := by rw [hu]; simp
    rw [List.cons_append, List.append_assoc, pMore, if_neg hu', if_pos hu, pExpr_mono (Nat.le_max_left _ _) hf]
    simp only
    rw [pMore_mono (Nat.le_max_right _ _) hg]

theorem items_reads {n : Nat} (hA : ∀ ts, ts.length < n → Chain ts → ReadsKinds ts) {r : List Token} (h : ItemKinds r)
    (hn : r.length ≤ n) (rest : List Token) : ∃ f es, pWordlist f (r ++ rest) = some (es, rest) := by
  cases h with
  | @mk u c r hu hc hm =>
    simp only [List.length_cons, List.length_append] at hn
    obtain ⟨g, es, hg⟩ := more_reads_kinds hA hm (by omega) rest
    have he : Ends (r ++ rest) := by
      cases hm with
      | done h => intro v hv; cases hv; exact .inl h
      | more h _ _ => intro v hv; cases hv; exact .inr h
    obtain ⟨f, t, hf⟩ := reads_whole hA (by omega) hc he
    refine ⟨max f g + 1, t :: es, ?_⟩
    rw [List.cons_append, List.append_assoc, pWordlist, if_pos hu, pExpr_mono (Nat.le_max_left _ _) hf]
    simp only
    rw [pMore_mono (Nat.le_max_right _ _) hg]

/-- What may follow an atom. -/
def After (rest : List Token) : Prop := ∀ u ∈ rest.head?, u.kind = .rparen ∨ u.kind = .comma ∨ u.kind ∈ betweenKinds

theorem Ends.after {rest : List Token} (h : Ends rest) : After rest := fun u hu => (h u hu).elim .inl (.inr ∘ .inl)

theorem field_after {u : Token} (hu : u.kind = .field) {rest : List Token} (h : After rest) :
    pPrimary 2 (u :: rest) = some (.types u false, rest) := by
  rw [pPrimary_field _ _ _ hu]
  cases rest with
  | nil => rfl
  | cons v vs =>
    have hn : isNumKind v.kind = false := by
      rcases h v rfl with e | e | e
      · rw [e]; rfl
      · rw [e]; rfl
      · obtain ⟨b, hb⟩ := between_binTok e
        cases hk : v.kind <;> rw [hk] at hb <;> first | rfl | cases hb
    have ha : pAfterField 1 u (v :: vs) = some (.types u false, v :: vs) := by
      rw [pAfterField_cons]
      rcases h v rfl with e | e | e
      · rw [e]
      · rw [e]
      · obtain ⟨b, hb⟩ := between_binTok e
        cases hk : v.kind <;> rw [hk] at hb <;> first | rfl | cases hb
    cases vs with
    | nil => simpa [fieldTail, hn] using ha
    | cons w ws => cases ws <;> simpa [fieldTail, hn] using ha

theorem fieldTail_other {f : Nat} {u v : Token} {vs : List Token} (hn : isNumKind v.kind = false) :
    fieldTail f u (v :: vs) = pAfterField f u (v :: vs) := by
  cases vs with
  | nil => simp [fieldTail, hn]
  | cons w ws => cases ws <;> simp [fieldTail, hn]

theorem atom_reads {n : Nat} (hA : ∀ ts, ts.length < n → Chain ts → ReadsKinds ts) {a : List Token} (h : Atom a)
    (hn : a.length ≤ n) {rest : List Token} (hr : After rest)
    (he : ¬ (a = [] ∧ ∃ u ∈ rest.head?, u.kind = .arith .sub)) :
    ∃ f t, pPrimary f (a ++ rest) = some (t, rest) := by
  cases h with
  | @paren u c v hu hc hv =>
    simp only [List.length_cons, List.length_append, List.length_nil] at hn
    obtain ⟨f, t, hf⟩ := reads_whole hA (rest := v :: rest) (by omega) hc (by intro w hw; cases hw; exact .inl hv)
    refine ⟨f + 1, .paren t, ?_⟩
    rw [List.cons_append, List.append_assoc, List.cons_append, List.nil_append, pPrimary_cons, hu]
    simp only
    rw [hf]
    simp only [if_pos hv]
  | @func u g r hu hi =>
    simp only [List.length_cons] at hn
    obtain ⟨f, es, hf⟩ := items_reads hA hi (by omega) rest
    refine ⟨f + 1, .func g es, ?_⟩
    rw [List.cons_append, pPrimary_cons, hu]
    simp only
    rw [hf]
  | @types u hu =>
    by_cases hk : u.kind = .field
    · exact ⟨2, _, field_after hk hr⟩
    · refine ⟨1, .types u false, ?_⟩
      rw [List.cons_append, List.nil_append, pPrimary_cons]
      cases hk' : u.kind <;> rw [hk'] at hu <;> first | rfl | exact absurd hk' hk | simp [typesKinds] at hu
  | omitted =>
    cases rest with
    | nil => exact ⟨1, _, rfl⟩
    | cons v vs =>
      refine ⟨1, .types v true, ?_⟩
      rw [List.nil_append, pPrimary_cons]
      rcases hr v rfl with e | e | e
      · rw [e]; rfl
      · rw [e]; rfl
      · have hs : v.kind ≠ .arith .sub := fun h => he ⟨rfl, v, rfl, h⟩
        simp only [betweenKinds, List.mem_cons, List.not_mem_nil, or_false] at e
        rcases e with e | e | e | e | e | e | e | e | e | e | e | e | e | e <;>
          first | exact absurd e hs | (rw [e]; rfl)
  | @to_ u lo v hi hu hlo hv hhi =>
    refine ⟨1, .to_ u lo hi, ?_⟩
    show pPrimary 1 (u :: lo :: v :: hi :: rest) = _
    rw [pPrimary_field _ _ _ hu, fieldTail, if_pos (num_kinds.2 hlo), if_pos ⟨hv, num_kinds.2 hhi⟩]
  | @in_ u v r hu hv hi =>
    simp only [List.length_cons] at hn
    obtain ⟨f, es, hf⟩ := items_reads hA hi (by omega) rest
    refine ⟨f + 1 + 1, .in_ u false es, ?_⟩
    rw [List.cons_append, List.cons_append, pPrimary_field _ _ _ hu, fieldTail_other (by rw [hv]; rfl), pAfterField_cons, hv]
    simp only
    rw [hf]
  | @notIn u v w r hu hv hw hi =>
    simp only [List.length_cons] at hn
    obtain ⟨f, es, hf⟩ := items_reads hA hi (by omega) rest
    refine ⟨f + 1 + 1, .in_ u true es, ?_⟩
    rw [List.cons_append, List.cons_append, List.cons_append, pPrimary_field _ _ _ hu, fieldTail_other (by rw [hv]; rfl),
      pAfterField_cons, hv]
    simp only
    rw [if_pos hw, hf]
  | @array u v r hu hv hi =>
    simp only [List.length_cons] at hn
    obtain ⟨f, es, hf⟩ := items_reads hA hi (by omega) rest
    simp only [arrayKinds, List.mem_cons, List.not_mem_nil, or_false] at hv
    rcases hv with hv | hv
    · refine ⟨f + 1 + 1, .array u .containsAny es, ?_⟩
      rw [List.cons_append, List.cons_append, pPrimary_field _ _ _ hu, fieldTail_other (by rw [hv]; rfl),
        pAfterField_cons, hv]
      simp only
      rw [hf]
    · refine ⟨f + 1 + 1, .array u .containsAll es, ?_⟩
      rw [List.cons_append, List.cons_append, pPrimary_field _ _ _ hu, fieldTail_other (by rw [hv]; rfl),
        pAfterField_cons, hv]
      simp only
      rw [hf]

theorem pre_reads {u : Token} {ts rest : List Token} {n : Nat}
    (hu : u.kind = .kNot ∨ u.kind = .arith .sub)
    (h : ∀ q, ∃ f t r, pExpr f q ts = some (t, r) ∧ Left n q rest r) :
    ∃ q f t r t', pExpr f q ts = some (t, r) ∧ Left n q rest r ∧ pPrimary (f + 1) (u :: ts) = some (t', r) := by
  rcases hu with hu | hu
  · obtain ⟨f, t, r, hf, hl⟩ := h 15
    exact ⟨15, f, t, r, .not_ t, hf, hl, by rw [pPrimary_cons, hu]; simp only; rw [hf]⟩
  · obtain ⟨f, t, r, hf, hl⟩ := h 13
    exact ⟨13, f, t, r, .neg t, hf, hl, by rw [pPrimary_cons, hu]; simp only; rw [hf]⟩

theorem chain_reads (n : Nat) : ∀ ts, ts.length < n → Chain ts → ReadsKinds ts := by
  induction n with
  | zero => intro ts h; omega
  | succ n hA =>
    intro ts hn hc rest hr p
    have expr_of : ∀ {f g : Nat} {us : List Token} {t : Tree} {r : List Token} {x : Tree × List Token},
        pPrimary f us = some (t, r) → pLoop g p t r = some x → ∃ k, pExpr k p us = some x := by
      intro f g us t r x h1 h2
      refine ⟨max f g + 1, ?_⟩
      rw [pExpr, pPrimary_mono (Nat.le_max_left _ _) h1]
      exact pLoop_mono (Nat.le_max_right _ _) h2
    cases hc with
    | atom ha =>
      obtain ⟨f, t, hf⟩ := atom_reads hA ha (by omega) hr.after (by
        rintro ⟨-, u, hu, hk⟩
        rcases hr u hu with e | e <;> rw [e] at hk <;> cases hk)
      obtain ⟨k, hk⟩ := expr_of hf (loop_stop hr)
      exact ⟨k, t, rest, hk, .inl rfl⟩
    | @pre u r hu hc =>
      simp only [List.length_cons] at hn ⊢
      obtain ⟨q, f, t, r', t', -, hl, hp⟩ := pre_reads hu (hA r (by omega) hc rest hr)
      rcases hl with rfl | ⟨v, vs, b, rfl, hb, _, hcv, hlen⟩
      · obtain ⟨k, hk⟩ := expr_of hp (loop_stop hr)
        exact ⟨k, t', r', hk, .inl rfl⟩
      · obtain ⟨g, t2, r2, hg, hl2⟩ := loop_reads hA hr r.length vs v hlen (by omega) hcv (binTok_between hb) p t'
        obtain ⟨k, hk⟩ := expr_of hp hg
        refine ⟨k, t2, r2, hk, ?_⟩
        rcases hl2 with h | ⟨w, ws, b2, h1, h2, h3, h4, h5⟩
        · exact .inl h
        · exact .inr ⟨w, ws, b2, h1, h2, h3, h4, by omega⟩
    | @bin a u r ha hu hne hc =>
      simp only [List.length_cons, List.length_append] at hn ⊢
      obtain ⟨f, t, hf⟩ := atom_reads hA ha (by omega) (rest := u :: (r ++ rest))
        (by intro w hw; cases hw; exact .inr (.inr hu)) (by
          rintro ⟨h1, w, hw, hk⟩
          cases hw; exact hne ⟨h1, hk⟩)
      obtain ⟨g, t2, r2, hg, hl2⟩ := loop_reads hA hr (r.length + 1) r u (by omega) (by omega) hc hu p t
      obtain ⟨k, hk⟩ := expr_of hf hg
      refine ⟨k, t2, r2, by rw [List.append_assoc, List.cons_append]; exact hk, ?_⟩
      rcases hl2 with h | ⟨w, ws, b2, h1, h2, h3, h4, h5⟩
      · exact .inl h
      · exact .inr ⟨w, ws, b2, h1, h2, h3, h4, by omega⟩

/-- The parser accepts every expression of the grammar. -/
theorem parse_complete {ts : List Token} (h : Expression (ts.map Token.kind)) : ∃ t, parseTokens ts = some t := by
  obtain ⟨f, t, hf⟩ := reads_whole (n := ts.length + 1) (chain_reads _) (Nat.lt_succ_self _) h (rest := [])
    (by intro u hu; cases hu)
  rw [List.append_nil] at hf
  exact ⟨t, parseTokens_of hf⟩

end BoolParser
