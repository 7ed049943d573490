import Verif.Lemmas.Blame
import Verif.Lemmas.HugeLiteral
/-!
# How a parse can fail
-/

namespace BoolParser
open Spec

/-- Fails only in the ways of `E`. -/
def Within {α : Type} (E : Exn → Prop) (r : Result α) : Prop := ∀ e, r = .error e → E e

variable {E : Exn → Prop}

theorem within_ok {α : Type} (a : α) : Within E (.ok a : Result α) := by intro e h; cases h
theorem within_err {α : Type} {e : Exn} (h : E e) : Within E (.error e : Result α) := by intro e' h'; cases h'; exact h
theorem within_bind {α β : Type} {r : Result α} {f : α → Result β} (h : Within E r) (hf : ∀ a, Within E (f a)) :
    Within E (r >>= f) := by
  intro e he
  rcases bind_err_inv he with he | ⟨a, _, he⟩
  · exact h e he
  · exact hf a e he
theorem within_ite {α : Type} {c : Prop} [Decidable c] {a b : Result α} (ha : Within E a) (hb : Within E b) :
    Within E (if c then a else b) := by split; exacts [ha, hb]

/-- Conversions of the token fail only in the ways of `E`. -/
def Converts (E : Exn → Prop) (t : Token) : Prop :=
  Within E (convertValue t.text (tokType t)) ∧ Within E (convertValue t.text .string)

/-- The failures of the listener's own. -/
structure Own (E : Exn → Prop) : Prop where
  expr : E .invalidExpression
  stack : E .emptyStack
  cast : E .classCast

abbrev Fine (E : Exn → Prop) : Tree → Tree → Prop := TreeRel (fun t t' => t.kind = t'.kind ∧ Converts E t)
abbrev Fines (E : Exn → Prop) : List Tree → List Tree → Prop := TreesRel (fun t t' => t.kind = t'.kind ∧ Converts E t)

theorem mapTypes_within (df : Option JStr) {t : Token} (h : Converts E t) (e : Bool) : Within E (mapTypes df t e) := by
  unfold mapTypes
  exact within_ite (within_ok _) (within_ite (within_ok _) (within_bind h.1 fun _ => within_ok _))

theorem popN_within (o : Own E) (st : NStack) : Within E (popN st) := by
  cases st with
  | nil => exact within_err o.stack
  | cons n st => exact within_ok _

mutual
theorem mapNode_within (o : Own E) (df : Option JStr) : {t t' : Tree} → Fine E t t' → ∀ st, Within E (mapNode df t st)
  | _, _, .types e h _ _, st => by
    rw [mapNode]; exact within_bind (mapTypes_within df h.2 e) fun _ => within_ok _
  | _, _, .func _ _ hs, st => by
    rw [mapNode]; exact within_bind (mapNodes_within o df hs st) fun _ => within_ok _
  | _, _, .in_ _ _ _ hs, st => by
    rw [mapNode]; exact within_bind (mapNodes_within o df hs st) fun _ => within_ok _
  | _, _, .to_ _ h1 h2 _ _ _, st => by
    rw [mapNode]; exact within_bind h1.2.1 fun _ => within_bind h2.2.1 fun _ => within_ok _
  | _, _, .cmp hl hr, st => by
    rw [mapNode]
    refine within_ite ?_ (within_ite ?_ ?_)
    · exact within_bind (mapNode_within o df hl st) fun _ => within_bind (popN_within o _) fun _ => within_ok _
    · exact within_bind (mapNode_within o df hr st) fun _ => within_bind (popN_within o _) fun _ => within_ok _
    · exact within_bind (mapNode_within o df hr st) fun _ => within_bind (mapNode_within o df hl _) fun _ => within_ok _
  | _, _, .arith _ _ hl hr, st => by
    rw [mapNode_arith]
    refine within_ite ?_ (within_ite ?_ (within_ite ?_ ?_))
    · exact within_bind (mapNode_within o df hl st) fun _ => within_bind (mapNode_within o df hr _) fun _ => within_ok _
    · exact within_bind (mapNode_within o df hl st) fun _ => within_bind (popN_within o _) fun _ => within_ok _
    · exact within_bind (mapNode_within o df hr st) fun _ => within_bind (popN_within o _) fun _ => within_ok _
    · match st with
      | b :: a :: st => exact within_ok _
      | [_] => exact within_err o.expr
      | [] => exact within_err o.expr
  | _, _, .paren _, _ => by simp only [mapNode]; exact within_err o.expr
  | _, _, .not_ _, _ => by simp only [mapNode]; exact within_err o.expr
  | _, _, .neg _, _ => by simp only [mapNode]; exact within_err o.expr
  | _, _, .bin _ _, _ => by simp only [mapNode]; exact within_err o.expr
  | _, _, .array _ _ _ _, _ => by simp only [mapNode]; exact within_err o.expr
theorem mapNodes_within (o : Own E) (df : Option JStr) : {ts ts' : List Tree} → Fines E ts ts' → ∀ st,
    Within E (mapNodes df ts st)
  | _, _, .nil, st => by rw [mapNodes]; exact within_ok _
  | _, _, .cons h hs, st => by
    rw [mapNodes]
    exact within_bind (mapNode_within o df h st) fun _ => within_bind (mapNodes_within o df hs _) fun _ => within_ok _
end

theorem exitMapped_within (o : Own E) (df : Option JStr) {t t' : Tree} (h : Fine E t t') (s : LState) :
    Within E (exitMapped df t s) := within_bind (mapNode_within o df h _) fun _ => within_ok _

theorem exitNeg_within (o : Own E) (df : Option JStr) {t t' : Tree} (h : Fine E t t') (s : LState) :
    Within E (exitNeg df t s) := by
  unfold exitNeg
  have leaf : Within E (match (generalizing := false) t with
    | .types t em => do
      let n ← mapTypes df t em
      pure { s with stack := .neg n :: s.stack }
    | _ => .error .classCast : Result LState) := by
    cases h <;> first
      | exact within_bind (mapTypes_within df (And.right (by assumption)) _) fun _ => within_ok _
      | exact within_err o.cast
  simp only
  split
  · exact within_ite (within_ok _) leaf
  · exact leaf

/-- The last operand read converts. -/
def LastFine (E : Exn → Prop) (s : LState) : Prop := ∀ t, s.last = some t → Converts E t

theorem exitNot_within (o : Own E) {s : LState} (hs : LastFine E s) : Within E (exitNot s) := by
  unfold exitNot
  split
  · exact within_ok _
  · split
    · exact within_err o.expr
    · rename_i t ht
      exact within_bind (hs t ht).1 fun _ => within_ok _

theorem exitBin_within (o : Own E) (c : Bool) (s : LState) : Within E (exitBin c s) := by
  unfold exitBin
  split
  · exact within_ok _
  · exact within_err o.expr

theorem exitMapped_last {df : Option JStr} {t : Tree} {s s' : LState} (h : exitMapped df t s = .ok s') : s'.last = s.last := by
  obtain ⟨p, _, h⟩ := bind_ok_inv h
  cases h; rfl

theorem exitNeg_last {df : Option JStr} {t : Tree} {s s' : LState} (h : exitNeg df t s = .ok s') : s'.last = s.last := by
  unfold exitNeg at h
  have leaf : ∀ {s'}, (match (generalizing := false) t with
    | .types t em => do
      let n ← mapTypes df t em
      pure { s with stack := .neg n :: s.stack }
    | _ => .error .classCast : Result LState) = .ok s' → s'.last = s.last := by
    intro s' h
    split at h
    · obtain ⟨p, _, h⟩ := bind_ok_inv h
      cases h; rfl
    · cases h
  simp only at h
  split at h
  · split at h
    · cases h; rfl
    · exact leaf h
  · exact leaf h

theorem exitNot_last {s s' : LState} (h : exitNot s = .ok s') : s'.last = s.last := by
  unfold exitNot at h
  split at h
  · cases h; rfl
  · split at h
    · cases h
    · obtain ⟨p, _, h⟩ := bind_ok_inv h
      cases h; rfl

theorem exitBin_last {c : Bool} {s s' : LState} (h : exitBin c s = .ok s') : s'.last = s.last := by
  unfold exitBin at h
  split at h
  · cases h; rfl
  · cases h

theorem exitArray_last {df : Option JStr} {f : Token} {op : ArrOp} {items : List Tree} {s s' : LState}
    (h : exitArray df f op items s = .ok s') : s'.last = s.last := by
  obtain ⟨p, _, h⟩ := bind_ok_inv h
  cases h; rfl

/-- Fails only in the ways of `E`, and leaves a state whose last operand converts. -/
def Steps (E : Exn → Prop) (r : Result LState) : Prop := Within E r ∧ ∀ s, r = .ok s → LastFine E s

theorem steps_of {r : Result LState} {s : LState} (h : Within E r) (hl : ∀ s', r = .ok s' → s'.last = s.last)
    (hs : LastFine E s) : Steps E r := ⟨h, fun s' h' t ht => hs t (by rw [← hl s' h']; exact ht)⟩

theorem steps_bind {r : Result LState} {f : LState → Result LState} (h : Steps E r)
    (hf : ∀ s, LastFine E s → Steps E (f s)) : Steps E (r >>= f) := by
  refine ⟨?_, ?_⟩
  · intro e he
    rcases bind_err_inv he with he | ⟨a, ha, he⟩
    · exact h.1 e he
    · exact (hf a (h.2 a ha)).1 e he
  · intro s hs
    obtain ⟨a, ha, hs⟩ := bind_ok_inv hs
    exact (hf a (h.2 a ha)).2 s hs

mutual
theorem walk_within (o : Own E) (df : Option JStr) : {t t' : Tree} → Fine E t t' → ∀ s, LastFine E s →
    Steps E (walk df t s)
  | _, _, .paren h, s, hs => by rw [walk]; exact walk_within o df h s hs
  | _, _, .not_ h, s, hs => by
    rw [walk]
    exact steps_bind (walk_within o df h s hs) fun s1 h1 => steps_of (exitNot_within o h1) (fun _ => exitNot_last) h1
  | _, _, .neg h, s, hs => by
    rw [walk]
    exact steps_bind (walk_within o df h s hs) fun s1 h1 => steps_of (exitNeg_within o df h _) (fun _ => exitNeg_last) h1
  | _, _, .cmp hl hr, s, hs => by
    rw [walk]
    exact steps_bind (walk_within o df hl s hs) fun s1 h1 => steps_bind (walk_within o df hr s1 h1) fun s2 h2 =>
      steps_of (exitMapped_within o df (.cmp hl hr) _) (fun _ => exitMapped_last) h2
  | _, _, .arith a1 a2 hl hr, s, hs => by
    rw [walk]
    exact steps_bind (walk_within o df hl s hs) fun s1 h1 => steps_bind (walk_within o df hr s1 h1) fun s2 h2 =>
      steps_of (exitMapped_within o df (.arith a1 a2 hl hr) _) (fun _ => exitMapped_last) h2
  | _, _, .bin hl hr, s, hs => by
    rw [walk]
    exact steps_bind (walk_within o df hl s hs) fun s1 h1 => steps_bind (walk_within o df hr s1 h1) fun s2 h2 =>
      steps_of (exitBin_within o _ _) (fun _ => exitBin_last) h2
  | _, _, .func a1 a2 he, s, hs => by
    rw [walk]
    exact steps_bind (walkAll_within o df he s hs) fun s1 h1 =>
      steps_of (exitMapped_within o df (.func a1 a2 he) _) (fun _ => exitMapped_last) h1
  | _, _, .types e h _ _, s, _ => by
    rw [walk]
    refine ⟨within_ok _, fun s' hs' t ht => ?_⟩
    cases hs'
    cases ht
    exact h.2
  | _, _, .to_ a1 a2 a3 a4 a5 a6, s, hs => by
    rw [walk]; exact steps_of (exitMapped_within o df (.to_ a1 a2 a3 a4 a5 a6) _) (fun _ => exitMapped_last) hs
  | _, _, .in_ n a1 a2 he, s, hs => by
    rw [walk]
    exact steps_bind (walkAll_within o df he s hs) fun s1 h1 =>
      steps_of (exitMapped_within o df (.in_ n a1 a2 he) _) (fun _ => exitMapped_last) h1
  | _, _, .array op a1 a2 he, s, hs => by
    rw [walk]
    exact steps_bind (walkAll_within o df he s hs) fun s1 h1 =>
      steps_of (within_bind (mapNodes_within o df he _) fun _ => within_ok _) (fun _ => exitArray_last) h1
theorem walkAll_within (o : Own E) (df : Option JStr) : {ts ts' : List Tree} → Fines E ts ts' → ∀ s, LastFine E s →
    Steps E (walkAll df ts s)
  | _, _, .nil, s, hs => by rw [walkAll]; exact ⟨within_ok _, fun s' h' => by cases h'; exact hs⟩
  | _, _, .cons h h', s, hs => by
    rw [walkAll]
    exact steps_bind (walk_within o df h s hs) fun s1 h1 => walkAll_within o df h' s1 h1
end

theorem listen_within (o : Own E) (df : Option JStr) {t t' : Tree} (h : Fine E t t') : Within E (listen df t) := by
  have hw := walk_within o df h LState.init (by intro t ht; cases ht)
  unfold listen
  intro e he
  rcases bind_err_inv he with he | ⟨s, hs, he⟩
  · exact hw.1 e he
  · have hl := hw.2 s hs
    suffices h : Within E (exitParse s) from h e he
    unfold exitParse
    split
    · exact within_ok _
    · split
      · rename_i t ht
        exact within_ite (within_ite (within_ok _) (within_bind (hl t ht).2 fun _ => within_ok _)) (within_err o.expr)
      · exact within_err o.expr

/-! ### Tokens of a text -/

theorem digits_first {t : JStr} (h : IsDigits t) : ∀ c, t.head? = some c → isDigit c = true := by
  intro c hc
  cases t with
  | nil => cases hc
  | cons x xs =>
    cases hc
    have := h.2
    simp only [List.all_cons, Bool.and_eq_true] at this
    exact this.1

theorem quote_not_digit {c : Char} (h : isDigit c = true) : c ≠ '\'' ∧ c ≠ '"' := by
  constructor <;> (rintro rfl; exact absurd h (by decide))

/-- A lexeme that begins with a quote has at least two characters. -/
theorem classified_long {t : JStr} {k : TK} (h : Classified t k) (hq : t.head? = some '\'' ∨ t.head? = some '"') :
    2 ≤ t.length := by
  have nd : ∀ {u r : JStr}, t = u ++ r → IsDigits u → False := by
    intro u r e hu
    cases u with
    | nil => exact hu.1 rfl
    | cons c cs =>
      subst e
      have := quote_not_digit (digits_first hu c rfl)
      rcases hq with hq | hq <;> cases hq
      · exact this.1 rfl
      · exact this.2 rfl
  have nh : ∀ {n : Nat} {u r : JStr}, t = u ++ r → HasDigits (n + 1) u → False := by
    intro n u r e hu
    exact nd e ⟨by rintro rfl; exact absurd hu.1 (by simp), hu.2⟩
  cases h with
  | table h => have := table_unquoted h; rcases hq with hq | hq; exacts [absurd hq this.1, absurd hq this.2]
  | integer h => exact (nd (List.append_nil _).symm h).elim
  | decimal h => obtain ⟨a, b, ha, _, e⟩ := h; exact (nd e ha).elim
  | version h =>
    obtain ⟨c, p, q, ps, hc, _, e⟩ := h
    exact (nd (u := [c]) (r := dots (p :: q :: ps)) (by rw [e]; rfl) ⟨by simp, by simp [hc]⟩).elim
  | date h => obtain ⟨y, m, d, hy, _, _, e⟩ := h; exact (nh e hy).elim
  | datetime h =>
    obtain ⟨x, _, _, _, ⟨y, m, d, hy, _, _, e'⟩, _, _, _, e⟩ := h
    subst e'
    rw [List.append_assoc] at e
    exact (nh e hy).elim
  | quoted h => obtain ⟨q, s, _, _, e⟩ := h; rw [e]; simp
  | name h1 h2 h3 =>
    have := name_unquoted (Classified.name h1 h2 h3 (by assumption) (by assumption) (by assumption))
    rcases hq with hq | hq; exacts [absurd hq this.1, absurd hq this.2]

theorem convert_string_within {t : JStr} (h : t.head? = some '\'' ∨ t.head? = some '"' → 2 ≤ t.length) :
    Within E (convertValue t .string) := by
  simp only [convertValue]
  have hu : ∀ q, (q = '\'' ∨ q = '"') → t.head? = some q → Within E (unquote t) := by
    intro q hq hh
    unfold unquote
    have : ¬ t.length < 2 := by
      have := h (by rcases hq with rfl | rfl; exacts [.inl hh, .inr hh])
      omega
    rw [if_neg this]
    exact within_ok _
  split
  · rename_i hq
    exact within_bind (hu _ (.inl rfl) hq.1) fun _ => within_ok _
  · split
    · rename_i hq
      exact within_bind (hu _ (.inr rfl) hq.1) fun _ => within_ok _
    · exact within_ok _

theorem convert_valid {t : Token} (hc : Classified t.text t.kind) (hE : TooLarge t.text → E .numberFormat) :
    Converts E t := by
  have hs : Within E (convertValue t.text .string) := convert_string_within (classified_long hc)
  refine ⟨?_, hs⟩
  obtain ⟨k, x⟩ := t
  simp only at hc hE hs ⊢
  cases hc with
  | table h =>
    by_cases hb : tokType ⟨k, x⟩ = .boolean
    · rw [hb]; exact within_ok _
    · rw [table_string h hb]; exact hs
  | integer h =>
    by_cases hl : digitsValue x ≤ 9223372036854775807
    · have := Spec.Lit.convert (l := .int x) ⟨h, hl⟩
      intro e he
      have he' : convertValue (Lit.int x).tok.text (tokType (Lit.int x).tok) = .error e := he
      rw [this] at he'; cases he'
    · have := convert_huge h (by omega)
      intro e he
      rw [this] at he; cases he
      exact hE ⟨h, by omega⟩
  | decimal h =>
    obtain ⟨a, b, ha, hb, rfl⟩ := h
    have e : tokType ⟨.decimal, a ++ '.' :: b⟩ = .decimal := rfl
    rw [e]
    simp only [convertValue, Dec.parse_point ha hb]
    exact within_ok _
  | version h => exact within_ok _
  | date h => exact within_ok _
  | datetime h => exact within_ok _
  | quoted h => exact hs
  | name _ _ _ _ _ _ => exact hs

theorem convert_eof : Converts E eofTok :=
  ⟨convert_string_within (by decide), convert_string_within (by decide)⟩

/-- How parsing a text can fail. -/
theorem parse_within {s : JStr} {df : Option JStr} {e : Exn} (hs : ∀ t ∈ lex s, Classified t.text t.kind)
    (h : parseExpression s df = .failure e) :
    e = .invalidExpression ∨ e = .emptyStack ∨ e = .classCast ∨ (e = .numberFormat ∧ ∃ t ∈ lex s, TooLarge t.text) := by
  unfold parseExpression at h
  have hr := parseTokens_rel (R := fun t t' => t.kind = t'.kind ∧ Converts (fun e => e = .invalidExpression ∨ e = .emptyStack ∨ e = .classCast ∨
      (e = .numberFormat ∧ ∃ t ∈ lex s, TooLarge t.text)) t) (fun _ _ h => h.1) ⟨rfl, convert_eof⟩
    (ts := lex s) (ts' := lex s) (forall2_diag (fun t ht => ⟨rfl, convert_valid (hs t ht)
      (fun hl => .inr (.inr (.inr ⟨rfl, t, ht, hl⟩)))⟩))
  split at h
  · rename_i t ht
    rw [ht] at hr
    cases hr with
    | some hr =>
      refine listen_within ⟨.inl rfl, .inr (.inl rfl), .inr (.inr (.inl rfl))⟩ df hr e ?_
      cases hl : listen df t with
      | ok n => rw [hl] at h; cases h
      | error e' => rw [hl] at h; cases h; rfl
  · cases h

end BoolParser
