import Verif.Lemmas.ParserComplete
import Verif.Lemmas.Unclosed
/-!
# Predictions of the parser's automaton
-/

namespace BoolParser

/-! ## First tokens -/

/-- States from which at least one token must be read. -/
def needStates : List Nat := [4, 86, 8, 90, 10, 92, 12, 127, 14, 129, 18, 142, 20, 144, 107, 108, 103, 101, 104, 100, 122, 120, 123, 106, 125, 117, 115, 118, 114, 121, 124, 25, 26, 30, 32, 34, 38, 43, 49, 39,
  40, 41, 44, 45, 46, 47, 48, 50, 51, 55, 56, 59, 60, 62, 63, 65, 66, 68, 69, 71, 72, 74, 75, 77, 78, 81, 93, 94, 23, 28,
  35, 131, 132, 133, 134, 135, 136, 137, 138]

def needCheck : Nat × ATrans → Bool
  | (s, .eps t) => !needStates.contains s || needStates.contains t
  | (s, .action _ t) => !needStates.contains s || needStates.contains t
  | (s, .prec _ t) => !needStates.contains s || needStates.contains t
  | (s, .rule st fo _) => !needStates.contains s || needStates.contains st || needStates.contains fo
  | _ => true

theorem need_checked : parserEdges.all needCheck = true := by krfl

theorem need_edge {s : Nat} {tr : ATrans} (h : tr ∈ parserAtn.transitions s) : needCheck (s, tr) = true :=
  List.all_eq_true.1 need_checked _ (edge_of_transition h)

theorem need_ne {p : Option Nat} {s : Nat} {w : List Nat} (h : Derives parserAtn p s w) (hs : needStates.contains s = true) :
    w ≠ [] := by
  induction h with
  | stop h =>
    have key : ∀ n ∈ stopStates, needStates.contains n = false := by decide +kernel
    rw [key _ (stop_mem h)] at hs; cases hs
  | eps h _ ih => have := need_edge h; simp only [needCheck, hs, Bool.not_true, Bool.false_or] at this; exact ih this
  | action h _ ih => have := need_edge h; simp only [needCheck, hs, Bool.not_true, Bool.false_or] at this; exact ih this
  | prec h _ _ ih => have := need_edge h; simp only [needCheck, hs, Bool.not_true, Bool.false_or] at this; exact ih this
  | read => exact nofun
  | call h _ _ ih1 ih2 =>
    have := need_edge h
    simp only [needCheck, hs, Bool.not_true, Bool.false_or, Bool.or_eq_true] at this
    intro he
    rw [List.append_eq_nil_iff] at he
    rcases this with h | h
    · exact ih1 h he.1
    · exact ih2 h he.2

/-- The set `A` of states is closed under steps without reading and reads only kinds in `T`. -/
def firstCheck (A : List Nat) (T : TK → Bool) : Nat × ATrans → Bool
  | (s, .eps t) => !A.contains s || A.contains t
  | (s, .action _ t) => !A.contains s || A.contains t
  | (s, .prec _ t) => !A.contains s || A.contains t
  | (s, .rule st fo _) => !A.contains s || (A.contains st && (needStates.contains st || A.contains fo))
  | (s, tr) => !A.contains s || allKinds.all fun k => (tr.target (kindToken k)).isNone || T k

def First (A : List Nat) (T : TK → Bool) : Prop := parserEdges.all (firstCheck A T) = true

theorem first_read {A : List Nat} {T : TK → Bool} {s : Nat} {k : TK} {t : Nat} {tr : ATrans}
    (h : firstCheck A T (s, tr) = true) (hs : A.contains s = true) (ht : tr.target (kindToken k) = some t) : T k = true := by
  have : firstCheck A T (s, tr) = (!A.contains s || allKinds.all fun k => (tr.target (kindToken k)).isNone || T k) := by
    cases tr <;> first | rfl | cases ht
  rw [this, hs, Bool.not_true, Bool.false_or] at h
  have := List.all_eq_true.1 h k (mem_allKinds k)
  rw [ht] at this
  exact this

theorem first_of {A : List Nat} {T : TK → Bool} (hA : First A T) {p : Option Nat} {s : Nat} {w : List Nat}
    (h : Derives parserAtn p s w) (hs : A.contains s = true) : ∀ ks, w = codes ks → ∀ k ∈ ks.head?, T k = true := by
  have edge : ∀ {s tr}, tr ∈ parserAtn.transitions s → firstCheck A T (s, tr) = true :=
    fun h => List.all_eq_true.1 hA _ (edge_of_transition h)
  induction h with
  | stop h =>
    intro ks hk k hm
    cases ks with
    | nil => cases hm
    | cons _ _ => cases hk
  | eps h _ ih => have := edge h; simp only [firstCheck, hs, Bool.not_true, Bool.false_or] at this; exact ih this
  | action h _ ih => have := edge h; simp only [firstCheck, hs, Bool.not_true, Bool.false_or] at this; exact ih this
  | prec h _ _ ih => have := edge h; simp only [firstCheck, hs, Bool.not_true, Bool.false_or] at this; exact ih this
  | read h ht _ _ =>
    intro ks hk k hm
    cases ks with
    | nil => cases hm
    | cons x xs =>
      simp only [codes, List.map_cons, List.cons.injEq] at hk
      cases hm
      exact first_read (edge h) hs (hk.1 ▸ ht)
  | call h h1 _ ih1 ih2 =>
    intro ks hk k hm
    have := edge h
    simp only [firstCheck, hs, Bool.not_true, Bool.false_or, Bool.and_eq_true, Bool.or_eq_true] at this
    obtain ⟨u, v, rfl, hu, hv⟩ := List.map_eq_append_iff.1 hk.symm
    cases u with
    | nil =>
      refine ih2 (this.2.resolve_left fun hn => need_ne h1 hn hu.symm) v hv.symm k hm
    | cons x xs => exact ih1 this.1 _ hu.symm k hm

theorem viable_first {A : List Nat} {T : TK → Bool} (hA : First A T) {p : Option Nat} {s : Nat}
    {σ : List Nat} {k : TK} {ks : List TK} (hs : A.contains s = true) (hn : needStates.contains s = true)
    (h : Viable parserAtn p s σ (codes (k :: ks))) : T k = true := by
  obtain ⟨x, y, e, hx, hy⟩ := h
  obtain ⟨u, v, e', hu, hv⟩ := List.map_eq_append_iff.1 e
  subst hu
  cases u with
  | nil => exact absurd rfl (need_ne hx hn)
  | cons x xs =>
    rw [List.cons_append, List.cons.injEq] at e'
    exact first_of hA hx hs _ rfl k (by rw [e'.1]; rfl)

/-! ## After an operand -/

/-- What may stand after an operand: the rest of the operator loop and everything the rules return to. -/
def afterStates : List Nat := [3, 54, 83, 81, 84, 85, 82, 58, 80, 29, 36, 42, 52, 55, 59, 62, 65, 68, 71, 74, 77, 56, 60, 63,
  66, 69, 72, 75, 78, 4, 86, 18, 142, 23, 28, 103, 101, 100, 104, 122, 120, 106, 123, 125, 117, 115, 114, 118, 121, 124]

def isAfterKind (k : TK) : Bool := (binTok k).isSome || k == .eof || k == .comma || k == .rparen

theorem first_after : First afterStates isAfterKind := by unfold First; krfl

/-- Return states that can only be followed by operators, `,`, `)` or the end. -/
def Stack (σ : List Nat) : Prop := ∀ s ∈ σ, afterStates.contains s = true

theorem stack_cons {s : Nat} {σ : List Nat} (h : Stack σ) (hs : afterStates.contains s = true) : Stack (s :: σ) := by
  intro t ht
  rcases List.mem_cons.1 ht with rfl | ht
  · exact hs
  · exact h t ht

theorem returns_first {σ : List Nat} {w : List Nat} (h : Returns parserAtn σ w) (hσ : Stack σ) :
    ∀ ks, w = codes ks → ∀ k ∈ ks.head?, isAfterKind k = true := by
  induction h with
  | nil =>
    intro ks hk k hm
    cases ks with
    | nil => cases hm
    | cons _ _ => cases hk
  | cons hd _ ih =>
    intro ks hk k hm
    obtain ⟨u, v, rfl, hu, hv⟩ := List.map_eq_append_iff.1 hk.symm
    cases u with
    | nil => exact ih (fun s hs => hσ s (List.mem_cons_of_mem _ hs)) v hv.symm k hm
    | cons x xs => exact first_of first_after hd (hσ _ (by simp)) _ hu.symm k hm

theorem viable_after {p : Option Nat} {s : Nat} {σ : List Nat} {k : TK} {ks : List TK} (hs : afterStates.contains s = true)
    (hσ : Stack σ) (h : Viable parserAtn p s σ (codes (k :: ks))) : isAfterKind k = true := by
  obtain ⟨x, y, e, hx, hy⟩ := h
  obtain ⟨u, v, e', hu, hv⟩ := List.map_eq_append_iff.1 e
  subst hu
  subst hv
  cases u with
  | nil => exact returns_first hy hσ v rfl k (by rw [List.nil_append] at e'; rw [← e']; rfl)
  | cons x xs =>
    rw [List.cons_append, List.cons.injEq] at e'
    exact first_of first_after hx hs _ rfl k (by rw [e'.1]; rfl)

/-! ## Inversions -/

theorem call_inv {p : Option Nat} {s st fo q : Nat} {w : List Nat} (h : Derives parserAtn p s w)
    (ht : parserAtn.transitions s = [.rule st fo q]) (hn : parserAtn.isStop s = false) :
    ∃ x y, w = x ++ y ∧ Der st x ∧ Derives parserAtn (if x = [] then p else none) fo y := by
  cases h with
  | stop h => rw [hn] at h; cases h
  | eps h _ => rw [ht] at h; simp at h
  | action h _ => rw [ht] at h; simp at h
  | prec h _ _ => rw [ht] at h; simp at h
  | read h h' _ => rw [ht] at h; simp at h; subst h; cases h'
  | call h h1 h2 =>
    rw [ht] at h
    simp only [List.mem_singleton, ATrans.rule.injEq] at h
    obtain ⟨rfl, rfl, rfl⟩ := h
    exact ⟨_, _, rfl, h1, h2⟩

theorem atom_inv {p : Option Nat} {s n t : Nat} {w : List Nat} (h : Derives parserAtn p s w)
    (ht : parserAtn.transitions s = [.atom n t]) (hn : parserAtn.isStop s = false) : ∃ w', w = n :: w' ∧ Der t w' := by
  cases h with
  | stop h => rw [hn] at h; cases h
  | eps h _ => rw [ht] at h; simp at h
  | action h _ => rw [ht] at h; simp at h
  | prec h _ _ => rw [ht] at h; simp at h
  | read h h' h2 =>
    rw [ht, List.mem_singleton] at h
    subst h
    simp only [ATrans.target] at h'
    split at h'
    · rename_i hk
      cases h'
      exact ⟨_, by rw [hk], h2⟩
    · cases h'
  | call h _ _ => rw [ht] at h; simp at h

theorem prec_inv {p : Option Nat} {s q t : Nat} {w : List Nat} (h : Derives parserAtn p s w)
    (ht : parserAtn.transitions s = [.prec q t]) (hn : parserAtn.isStop s = false) :
    (∀ x, p = some x → x ≤ q) ∧ Derives parserAtn p t w := by
  cases h with
  | stop h => rw [hn] at h; cases h
  | eps h _ => rw [ht] at h; simp at h
  | action h _ => rw [ht] at h; simp at h
  | prec h h1 h2 =>
    rw [ht] at h
    simp only [List.mem_singleton, ATrans.prec.injEq] at h
    obtain ⟨rfl, rfl⟩ := h
    exact ⟨h1, h2⟩
  | read h h' _ => rw [ht] at h; simp at h; subst h; cases h'
  | call h _ _ => rw [ht] at h; simp at h

/-- States with transitions that read nothing. -/
theorem eps_inv {p : Option Nat} {s : Nat} {w : List Nat} (h : Derives parserAtn p s w) {ts : List Nat}
    (ht : parserAtn.transitions s = ts.map .eps) (hn : parserAtn.isStop s = false) :
    ∃ t ∈ ts, Derives parserAtn p t w := by
  have no : ∀ {tr}, tr ∈ parserAtn.transitions s → ∃ t ∈ ts, tr = .eps t := by
    intro tr h
    rw [ht, List.mem_map] at h
    obtain ⟨t, h, e⟩ := h
    exact ⟨t, h, e.symm⟩
  cases h with
  | stop h => rw [hn] at h; cases h
  | eps h h2 =>
    obtain ⟨t, h, e⟩ := no h
    cases e
    exact ⟨_, h, h2⟩
  | action h _ => obtain ⟨_, _, e⟩ := no h; cases e
  | prec h _ _ => obtain ⟨_, _, e⟩ := no h; cases e
  | read h h' _ => obtain ⟨_, _, rfl⟩ := no h; cases h'
  | call h _ _ => obtain ⟨_, _, e⟩ := no h; cases e

theorem derives_none {p : Option Nat} {s : Nat} {w : List Nat} (h : Derives parserAtn p s w) : Der s w := by
  induction h with
  | stop h => exact .stop h
  | eps h _ ih => exact .eps h ih
  | action h _ ih => exact .action h ih
  | prec h _ _ ih => exact .prec h nofun ih
  | read h ht h' _ => exact .read h ht h'
  | call h h1 _ _ ih => exact .call h h1 (by rw [ite_self]; exact ih)

theorem viable_none {p : Option Nat} {s : Nat} {σ w : List Nat} (h : Viable parserAtn p s σ w) :
    Viable parserAtn none s σ w := by
  obtain ⟨x, y, e, hx, hy⟩ := h
  exact ⟨x, y, e, derives_none hx, hy⟩

/-! ## The alternatives that do not fit -/

section
variable {p : Option Nat} {σ : List Nat} {k : TK} {ks : List TK}

theorem no_paren (h : Viable parserAtn p 25 σ (codes (k :: ks))) : k = .lparen :=
  eq_of_beq (viable_first (A := [25, 26]) (T := (· == .lparen)) (by unfold First; krfl) (by decide) (by decide) h)

theorem no_not (h : Viable parserAtn p 30 σ (codes (k :: ks))) : k = .kNot :=
  eq_of_beq (viable_first (A := [30]) (T := (· == .kNot)) (by unfold First; krfl) (by decide) (by decide) h)

theorem no_neg (h : Viable parserAtn p 32 σ (codes (k :: ks))) : k = .arith .sub :=
  eq_of_beq (viable_first (A := [32]) (T := (· == .arith .sub)) (by unfold First; krfl) (by decide) (by decide) h)

/-- A name of a function. -/
def isFnKind : TK → Bool
  | .fn _ => true
  | _ => false

theorem no_func (h : Viable parserAtn p 34 σ (codes (k :: ks))) : isFnKind k = true :=
  viable_first (A := [34, 8, 90]) (T := isFnKind) (by unfold First; krfl) (by decide) (by decide) h

/-- A state that reads one token leaves the rest to its target. -/
theorem viable_atom {s n t : Nat} (h : Viable parserAtn p s σ (codes (k :: ks)))
    (ht : parserAtn.transitions s = [.atom n t]) (hn : parserAtn.isStop s = false) :
    kindToken k = n ∧ Viable parserAtn none t σ (codes ks) := by
  obtain ⟨x, y, e, hx, hy⟩ := h
  obtain ⟨w, rfl, hw⟩ := atom_inv hx ht hn
  simp only [codes, List.map_cons, List.cons_append, List.cons.injEq] at e
  exact ⟨e.1, w, y, e.2, hw, hy⟩

/-- `types` takes a token or nothing. -/
theorem no_types (hσ : Stack σ) (h : Viable parserAtn p 37 σ (codes (k :: ks))) :
    isAfterKind k = true ∨ (k ∈ typesKinds ∧ Viable parserAtn none 54 σ (codes ks)) := by
  obtain ⟨x, y, e, hx, hy⟩ := h
  obtain ⟨a, b, rfl, ha, hb⟩ := call_inv (st := 16) (fo := 54) (q := 0) hx (by krfl) (by krfl)
  rw [List.append_assoc] at e
  obtain ⟨u, v, e', hu, hv⟩ := List.map_eq_append_iff.1 e
  subst hu
  rcases derives_lang ha u rfl with rfl | ⟨j, hj, rfl⟩
  · left
    refine viable_after (p := none) (s := 54) (by decide) hσ (ks := ks) ⟨b, y, ?_, derives_none hb, hy⟩
    rw [e', List.nil_append]; exact hv
  · right
    simp only [List.cons_append, List.nil_append, List.cons.injEq] at e'
    obtain ⟨rfl, rfl⟩ := e'
    exact ⟨hj, b, y, hv, derives_none hb, hy⟩

theorem no_plain {j : TK} (hσ : Stack σ) (hk : isAfterKind k = false) (hj : isAfterKind j = false) :
    ¬ Viable parserAtn p 37 σ (codes (k :: j :: ks)) := by
  intro h
  rcases no_types hσ h with h | ⟨_, h⟩
  · rw [hk] at h; cases h
  · rw [viable_after (by decide) hσ h] at hj; cases hj

theorem no_range {j : TK} (h : Viable parserAtn p 38 σ (codes (k :: j :: ks))) : isNumKind j = true :=
  viable_first (s := 39) (A := [39, 14, 129]) (T := isNumKind) (by unfold First; krfl) (by decide) (by decide)
    (viable_atom (n := kindToken .field) h (by krfl) (by krfl)).2

theorem no_in {j : TK} (h : Viable parserAtn p 43 σ (codes (k :: j :: ks))) : (j == .kNot || j == .kIn) = true :=
  viable_first (s := 45) (A := [45, 44, 46, 47]) (T := fun j => j == .kNot || j == .kIn) (by unfold First; krfl) (by decide)
    (by decide) (viable_atom (n := kindToken .field) h (by krfl) (by krfl)).2

end

/-! ## The operator loop -/

/-- The precedence of the state before a predicate, and the operators behind it. -/
def predRows : List (Nat × Nat × Nat × List Nat × List TK) :=
  [(55, 14, 56, [56, 4, 86], [.cmp .gt, .cmp .ge, .cmp .lt, .cmp .le, .cmp .eq, .cmp .ne]),
   (59, 12, 60, [60], [.arith .exp]), (62, 11, 63, [63], [.arith .div]), (65, 10, 66, [66], [.arith .mul]),
   (68, 9, 69, [69], [.arith .mod]), (71, 8, 72, [72], [.arith .add]), (74, 7, 75, [75], [.arith .sub]),
   (77, 5, 78, [78, 18, 142], [.kAnd, .kOr])]

def predCheck (r : Nat × Nat × Nat × List Nat × List TK) : Bool :=
  decide (parserAtn.transitions r.1 = [.prec r.2.1 r.2.2.1]) && !parserAtn.isStop r.1 && r.2.2.2.1.contains r.2.2.1 &&
  needStates.contains r.2.2.1 && parserEdges.all (firstCheck r.2.2.2.1 (fun k => r.2.2.2.2.contains k)) &&
  r.2.2.2.2.all (fun k => match binTok k with | some b => b.prec == r.2.1 | none => false)

theorem pred_checked : predRows.all predCheck = true := by krfl

theorem pred_inv {p : Option Nat} {σ : List Nat} {k : TK} {ks : List TK} {a q b : Nat} {A : List Nat} {l : List TK}
    (hr : (a, q, b, A, l) ∈ predRows) (h : Viable parserAtn p a σ (codes (k :: ks))) :
    k ∈ l ∧ (∀ n, p = some n → n ≤ q) ∧ (binTok k).map BinTok.prec = some q := by
  have hc := List.all_eq_true.1 pred_checked _ hr
  simp only [predCheck, Bool.and_eq_true, decide_eq_true_eq, Bool.not_eq_true'] at hc
  obtain ⟨⟨⟨⟨⟨h1, h2⟩, h3⟩, h4⟩, h5⟩, h6⟩ := hc
  obtain ⟨x, y, e, hx, hy⟩ := h
  obtain ⟨hp, hx⟩ := prec_inv hx h1 h2
  have hk : k ∈ l := by
    have := viable_first h5 h3 h4 ⟨x, y, e, hx, hy⟩
    simpa using this
  refine ⟨hk, hp, ?_⟩
  have := List.all_eq_true.1 h6 k hk
  revert this
  cases binTok k with
  | none => intro h; cases h
  | some b => intro h; simp only [Option.map_some, eq_of_beq h]

/-- The loop is entered only with an operator that binds tightly enough. -/
theorem loop_inv {p : Nat} {σ : List Nat} {k : TK} {ks : List TK}
    (h : Viable parserAtn (some p) 81 σ (codes (k :: ks))) : ∃ b, binTok k = some b ∧ p ≤ b.prec := by
  obtain ⟨x, y, e, hx, hy⟩ := h
  obtain ⟨t, ht, hx⟩ := eps_inv (ts := [55, 59, 62, 65, 68, 71, 74, 77]) hx (by krfl) (by krfl)
  have hrow : ∀ t ∈ [55, 59, 62, 65, 68, 71, 74, 77], ∃ r ∈ predRows, r.1 = t := by decide
  obtain ⟨⟨a, q, b, A, l⟩, hr, rfl⟩ := hrow t ht
  obtain ⟨_, hp, hq⟩ := pred_inv hr ⟨x, y, e, hx, hy⟩
  cases hb : binTok k with
  | none => rw [hb] at hq; cases hq
  | some b =>
    rw [hb] at hq
    simp only [Option.map_some, Option.some.injEq] at hq
    exact ⟨b, rfl, hq ▸ hp p rfl⟩

/-! ## Predictions -/

/-- The alternatives of the six decisions that ask the automaton. -/
theorem alt_expr {j t : Nat} (h : parserAtn.alternative 53 j = some t) :
    (j, t) ∈ [(1, 25), (2, 30), (3, 32), (4, 34), (5, 37), (6, 38), (7, 43), (8, 49)] := by
  match j with
  | 0 => cases h
  | 1 | 2 | 3 | 4 | 5 | 6 | 7 | 8 => cases h; decide
  | _ + 9 => cases h

theorem alt_types140 {j t : Nat} (h : parserAtn.alternative 140 j = some t) :
    (j, t) ∈ [(1, 131), (2, 132), (3, 133), (4, 134), (5, 135), (6, 136), (7, 137), (8, 138), (9, 139)] := by
  match j with
  | 0 => cases h
  | 1 | 2 | 3 | 4 | 5 | 6 | 7 | 8 | 9 => cases h; decide
  | _ + 10 => cases h

theorem alt_oper {j t : Nat} (h : parserAtn.alternative 81 j = some t) :
    (j, t) ∈ [(1, 55), (2, 59), (3, 62), (4, 65), (5, 68), (6, 71), (7, 74), (8, 77)] := by
  match j with
  | 0 => cases h
  | 1 | 2 | 3 | 4 | 5 | 6 | 7 | 8 => cases h; decide
  | _ + 9 => cases h

theorem types_kinds (ts : List Token) : tokenTypes ts = codes (ts.map Token.kind ++ [.eof]) := by
  simp [tokenTypes, codes, kindToken, Function.comp_def]

theorem types_cons (t : Token) (ts : List Token) : tokenTypes (t :: ts) = kindToken t.kind :: tokenTypes ts := rfl

theorem types_append (c r : List Token) : tokenTypes (c ++ r) = codes (c.map Token.kind) ++ tokenTypes r := by
  simp [tokenTypes, codes, Function.comp_def]

theorem types_codes (t : Token) (ts : List Token) :
    tokenTypes (t :: ts) = codes (t.kind :: (ts.map Token.kind ++ [.eof])) := types_kinds (t :: ts)

/-- The kind of the next token, `.eof` at the end. -/
def headKind : List Token → TK
  | [] => .eof
  | t :: _ => t.kind

theorem types_head (ts : List Token) : ∃ ks, tokenTypes ts = codes (headKind ts :: ks) := by
  cases ts with
  | nil => exact ⟨[], by simp [types_kinds, headKind]⟩
  | cons t ts => exact ⟨_, types_codes t ts⟩

section
variable {p : Option Nat} {σ : List Nat} {ts : List Token} {i : Nat}

/-- The first four alternatives are ruled out by the next token. -/
theorem expr_head (hi : i ≤ 8) (s : Nat) (ha : parserAtn.alternative 53 i = some s)
    (h : Viable parserAtn p s σ (tokenTypes ts))
    (h1 : 1 < i → headKind ts ≠ .lparen) (h2 : 2 < i → headKind ts ≠ .kNot) (h3 : 3 < i → headKind ts ≠ .arith .sub)
    (h4 : 4 < i → isFnKind (headKind ts) = false) (h5 : 5 < i → ¬ Viable parserAtn p 37 σ (tokenTypes ts))
    (h6 : 6 < i → ¬ Viable parserAtn p 38 σ (tokenTypes ts)) (h7 : 7 < i → ¬ Viable parserAtn p 43 σ (tokenTypes ts)) :
    Predicts parserAtn 53 p σ (tokenTypes ts) i := by
  refine ⟨⟨s, ha, h⟩, ?_⟩
  intro j hj t ht hv
  obtain ⟨ks, e⟩ := types_head ts
  have := alt_expr ht
  simp only [List.mem_cons, List.not_mem_nil, or_false, Prod.mk.injEq] at this
  rcases this with ⟨rfl, rfl⟩ | ⟨rfl, rfl⟩ | ⟨rfl, rfl⟩ | ⟨rfl, rfl⟩ | ⟨rfl, rfl⟩ | ⟨rfl, rfl⟩ | ⟨rfl, rfl⟩ | ⟨rfl, rfl⟩
  · exact h1 hj (no_paren (e ▸ hv))
  · exact h2 hj (no_not (e ▸ hv))
  · exact h3 hj (no_neg (e ▸ hv))
  · rw [no_func (e ▸ hv)] at h4; exact absurd (h4 hj) nofun
  · exact h5 hj hv
  · exact h6 hj hv
  · exact h7 hj hv
  · omega

/-- The alternatives of `types` and the kinds they read. -/
def typesRows : List (Nat × Nat × List Nat × List TK) :=
  [(1, 131, [131], [.integer]), (2, 132, [132], [.decimal]), (3, 133, [133], [.version]),
   (4, 134, [134, 20, 144], [.kTrue, .kFalse]), (5, 135, [135], [.word]), (6, 136, [136], [.field]),
   (7, 137, [137], [.date]), (8, 138, [138], [.datetime])]

theorem types_rows : typesRows.all (fun r => r.2.2.1.contains r.2.1 && needStates.contains r.2.1 &&
    parserEdges.all (firstCheck r.2.2.1 (fun k => r.2.2.2.contains k))) = true := by krfl

theorem types_inv {s : Nat} {A : List Nat} {l : List TK} {k : TK} {ks : List TK}
    (hr : (i, s, A, l) ∈ typesRows) (h : Viable parserAtn p s σ (codes (k :: ks))) : k ∈ l := by
  have hc := List.all_eq_true.1 types_rows _ hr
  simp only [Bool.and_eq_true] at hc
  simpa using viable_first hc.2 hc.1.1 hc.1.2 h

/-- Which kinds a lower alternative would need. -/
theorem types_pred (s : Nat) (ha : parserAtn.alternative 140 i = some s)
    (h : Viable parserAtn p s σ (tokenTypes ts)) (hi : ∀ r ∈ typesRows, r.1 < i → headKind ts ∉ r.2.2.2) :
    Predicts parserAtn 140 p σ (tokenTypes ts) i := by
  refine ⟨⟨s, ha, h⟩, ?_⟩
  intro j hj t ht hv
  obtain ⟨ks, e⟩ := types_head ts
  rw [e] at hv
  have hjt := alt_types140 ht
  have row : ∀ x ∈ [(1, 131), (2, 132), (3, 133), (4, 134), (5, 135), (6, 136), (7, 137), (8, 138), (9, 139)],
      x = (9, 139) ∨ ∃ r ∈ typesRows, x = (r.1, r.2.1) := by decide
  have h9 : i ≤ 9 := by
    have := alt_types140 ha
    simp only [List.mem_cons, List.not_mem_nil, or_false, Prod.mk.injEq] at this
    omega
  rcases row _ hjt with h | ⟨⟨j', t', A, l⟩, hr, h⟩
  · cases h; omega
  · cases h
    exact hi _ hr hj (types_inv hr hv)

theorem viable_then {s : Nat} {w x : List Nat} (hv : Viable parserAtn none 83 σ w)
    (h : ∀ y, Der 83 y → Derives parserAtn p s (x ++ y)) : Viable parserAtn p s σ (x ++ w) := by
  obtain ⟨y, z, rfl, hy, hz⟩ := hv
  exact ⟨x ++ y, z, by rw [List.append_assoc], h y hy, hz⟩

theorem returns_of {s d : Nat} {w : List Nat} (hv : Viable parserAtn none s σ w) (h : ∀ y, Der s y → Der d y) :
    Returns parserAtn (d :: σ) w := by
  obtain ⟨y, z, rfl, hy, hz⟩ := hv
  exact .cons (h y hy) hz

end

/-! ## The methods follow the automaton -/

theorem gtypes_of {σ : List Nat} {t : Token} {ts : List Token} (ht : t.kind ∈ typesKinds)
    (hr : Returns parserAtn σ (tokenTypes ts)) : GTypes parserAtn σ (t :: ts) (.types t false) ts := by
  have h141 : Der 141 [] := by ε 17; exact der_stop (by decide +kernel)
  have hb : ∀ n, (ATrans.set [(7, 8)] 145).target n = some 145 → Der 134 [n] := by
    intro n hn
    refine der_call (x := [n]) (y := []) 20 141 0 (by decide +kernel) ?_ h141
    ε 144
    refine der_read 145 (.set [(7, 8)] 145) (by decide +kernel) hn ?_
    ε 21; exact der_stop (by decide +kernel)
  have key : ∃ i s, (i, t.kind) ∈ typesAlts ∧ parserAtn.alternative 140 i = some s ∧ Der s [kindToken t.kind] ∧
      ∀ r ∈ typesRows, r.1 < i → t.kind ∉ r.2.2.2 := by
    simp only [typesKinds, List.mem_cons, List.not_mem_nil, or_false] at ht
    rcases ht with h | h | h | h | h | h | h | h | h <;> rw [h]
    · exact ⟨1, 131, by decide, by decide +kernel, by δ 141 ⟪.atom 37 141⟫; exact h141, by decide⟩
    · exact ⟨2, 132, by decide, by decide +kernel, by δ 141 ⟪.atom 35 141⟫; exact h141, by decide⟩
    · exact ⟨3, 133, by decide, by decide +kernel, by δ 141 ⟪.atom 36 141⟫; exact h141, by decide⟩
    · exact ⟨4, 134, by decide, by decide +kernel, hb _ (by decide +kernel), by decide⟩
    · exact ⟨4, 134, by decide, by decide +kernel, hb _ (by decide +kernel), by decide⟩
    · exact ⟨5, 135, by decide, by decide +kernel, by δ 141 ⟪.atom 41 141⟫; exact h141, by decide⟩
    · exact ⟨6, 136, by decide, by decide +kernel, by δ 141 ⟪.atom 44 141⟫; exact h141, by decide⟩
    · exact ⟨7, 137, by decide, by decide +kernel, by δ 141 ⟪.atom 38 141⟫; exact h141, by decide⟩
    · exact ⟨8, 138, by decide, by decide +kernel, by δ 141 ⟪.atom 39 141⟫; exact h141, by decide⟩
  obtain ⟨i, s, h1, h2, h3, h4⟩ := key
  exact .tok h1 (types_pred s h2 ⟨[kindToken t.kind], tokenTypes ts, rfl, h3, hr⟩ h4)

theorem gtypes_empty {σ : List Nat} {ts : List Token} (ht : headKind ts ∉ typesKinds)
    (hr : Returns parserAtn σ (tokenTypes ts)) :
    GTypes parserAtn σ ts (.types (ts.head?.getD eofTok) true) ts := by
  refine .empty (types_pred 139 (by decide +kernel) ⟨[], tokenTypes ts, rfl, ?_, hr⟩ ?_)
  · ε 141; ε 17; exact der_stop (by decide +kernel)
  · have : ∀ r ∈ typesRows, ∀ k ∈ r.2.2.2, k ∈ typesKinds := by decide
    exact fun r hr _ hk => ht (this r hr _ hk)

/-- The operator rows, by kind. -/
theorem bin_row {k : TK} {b : BinTok} (h : binTok k = some b) :
    ∃ i a b' c d, (k, i, a, b.prec, b', c, d) ∈ operRows := by
  cases k with
  | cmp op => cases h; cases op <;> exact ⟨_, _, _, _, _, by simp [operRows, BinTok.prec]; exact ⟨rfl, rfl, rfl, rfl, rfl⟩⟩
  | arith op =>
    cases h; cases op <;> exact ⟨_, _, _, _, _, by simp [operRows, BinTok.prec]; exact ⟨rfl, rfl, rfl, rfl, rfl⟩⟩
  | kAnd => cases h; exact ⟨_, _, _, _, _, by simp [operRows, BinTok.prec]; exact ⟨rfl, rfl, rfl, rfl, rfl⟩⟩
  | kOr => cases h; exact ⟨_, _, _, _, _, by simp [operRows, BinTok.prec]; exact ⟨rfl, rfl, rfl, rfl, rfl⟩⟩
  | _ => cases h

/-- The alternative of an operator. -/
theorem oper_pred {p : Nat} {σ : List Nat} {t : Token} {ts : List Token} {i a q b c d : Nat}
    (hr : (t.kind, i, a, q, b, c, d) ∈ operRows) (h : Viable parserAtn (some p) a σ (tokenTypes (t :: ts))) :
    Predicts parserAtn 81 (some p) σ (tokenTypes (t :: ts)) i := by
  refine ⟨⟨a, (oper_row hr).1, h⟩, ?_⟩
  intro j hj s hs hv
  have row : ∀ x ∈ [(1, 55), (2, 59), (3, 62), (4, 65), (5, 68), (6, 71), (7, 74), (8, 77)], ∃ r ∈ predRows,
      x.2 = r.1 ∧ ∀ o ∈ operRows, x.1 < o.2.1 → o.1 ∉ r.2.2.2.2 := by decide
  obtain ⟨⟨a', q', b', A, l⟩, hm, e, hno⟩ := row _ (alt_oper hs)
  cases e
  rw [types_codes] at hv
  exact hno _ hr hj (pred_inv hm hv).1

/-- The loop goes on. -/
theorem loop_more {p : Nat} {σ : List Nat} {w : List Nat} {a : Nat} (ha : ATrans.eps a ∈ parserAtn.transitions 81)
    (h : Viable parserAtn (some p) a σ w) :
    Predicts parserAtn 83 (some p) σ w 1 ∧ Viable parserAtn (some p) 83 σ w := by
  obtain ⟨x, y, e, hx, hy⟩ := h
  have h81 : Derives parserAtn (some p) 81 x := .eps ha hx
  refine ⟨⟨⟨81, by decide +kernel, x, y, e, h81, hy⟩, ?_⟩, x, y, e, ?_, hy⟩
  · intro j hj t ht
    have : j = 0 := by omega
    subst this
    cases ht
  · ε 81; exact h81

/-- The loop ends. -/
theorem loop_leaves {p : Nat} {σ : List Nat} {ts : List Token} (hr : Returns parserAtn σ (tokenTypes ts))
    (h : ∀ b, binTok (headKind ts) = some b → ¬ p ≤ b.prec) :
    Predicts parserAtn 83 (some p) σ (tokenTypes ts) 2 ∧ Viable parserAtn (some p) 83 σ (tokenTypes ts) := by
  have hv : ∀ s, s = 83 ∨ s = 84 → Viable parserAtn (some p) s σ (tokenTypes ts) := by
    rintro s (rfl | rfl) <;> refine ⟨[], _, rfl, ?_, hr⟩
    · exact loop_exit
    · ε 3; exact der_stop (by decide +kernel)
  refine ⟨⟨⟨84, by decide +kernel, hv _ (.inr rfl)⟩, ?_⟩, hv _ (.inl rfl)⟩
  intro j hj t ht hv
  match j, ht with
  | 1, ht =>
    cases ht
    obtain ⟨ks, e⟩ := types_head ts
    rw [e] at hv
    obtain ⟨b, hb, hp⟩ := loop_inv hv
    exact h b hb hp
  | _ + 2, _ => omega

theorem wordlist_der {c : List TK} (h : ListKinds c) : Der 10 (codes c) := by
  obtain ⟨e, es, he, hes, rfl⟩ := h
  exact wordlist_derive (expression_der he) fun x hx => expression_der (hes x hx)

theorem more_der {c : List TK} (h : MoreKinds c) : Der 122 (codes c) := by
  obtain ⟨es, hes, rfl⟩ := h
  exact items_derive es fun x hx => expression_der (hes x hx)

/-- The spaces that a list may have by the grammar are never there. -/
theorem no_space {d s t : Nat} {σ : List Nat} {ts : List Token} (h1 : parserAtn.alternative d 1 = some s)
    (hs : s = 94 ∨ s = 108)
    (h2 : parserAtn.alternative d 2 = some t) (hv : Viable parserAtn none t σ (tokenTypes ts)) :
    Predicts parserAtn d none σ (tokenTypes ts) 2 := by
  refine ⟨⟨t, h2, hv⟩, ?_⟩
  intro j hj u hu hv
  match j, hu with
  | 1, hu =>
    rw [h1] at hu
    cases hu
    obtain ⟨ks, e⟩ := types_head ts
    rw [e] at hv
    have := viable_first (A := [94, 93, 108, 107]) (T := fun _ => false) (by unfold First; krfl)
      (by rcases hs with rfl | rfl <;> decide) (by rcases hs with rfl | rfl <;> decide) hv
    cases this
  | _ + 2, _ => omega

theorem parse_follows (f : Nat) :
    (∀ p ts x σ, pExpr f p ts = some x → Stack σ → Returns parserAtn σ (tokenTypes x.2) →
      GExpr parserAtn p σ ts x.1 x.2) ∧
    (∀ p ts x σ, pPrimary f ts = some x → Stack σ → Viable parserAtn (some p) 83 σ (tokenTypes x.2) →
      GPrimary parserAtn p σ ts x.1 x.2) ∧
    (∀ p t ts x σ, t.kind = .field → isNumKind (headKind ts) = false → pAfterField f t ts = some x → Stack σ →
      Viable parserAtn (some p) 83 σ (tokenTypes x.2) → GPrimary parserAtn p σ (t :: ts) x.1 x.2) ∧
    (∀ p l ts x σ, pLoop f p l ts = some x → Stack σ → Returns parserAtn σ (tokenTypes x.2) →
      GLoop parserAtn p σ l ts x.1 x.2 ∧ Viable parserAtn (some p) 83 σ (tokenTypes ts)) ∧
    (∀ ts x σ, pWordlist f ts = some x → Stack σ → Returns parserAtn σ (tokenTypes x.2) →
      GWordlist parserAtn σ ts x.1 x.2) ∧
    (∀ ts x σ, pMore f ts = some x → Stack σ → Returns parserAtn σ (tokenTypes x.2) →
      GMore parserAtn σ ts x.1 x.2) := by
  induction f with
  | zero => refine ⟨?_, ?_, ?_, ?_, ?_, ?_⟩ <;> intros <;> rename_i h _ _ <;> cases h
  | succ f ih =>
    obtain ⟨hE, hP, hA, hL, hW, hM⟩ := ih
    obtain ⟨tE, tP, tA, tL, tW, tM⟩ := parse_takes f
    have plain : ∀ (p : Nat) (t : Token) (ts : List Token) (σ : List Nat), t.kind ∈ typesKinds → Stack σ →
        Viable parserAtn (some p) 83 σ (tokenTypes ts) → GPrimary parserAtn p σ (t :: ts) (.types t false) ts := by
      intro p t ts σ ht hσ hv
      refine .types (expr_head (by decide) 37 (by decide +kernel)
        (viable_then (x := [kindToken t.kind]) (viable_none hv) fun y hy => alt_types ht hy) ?_ ?_ ?_ ?_ nofun nofun nofun)
        (gtypes_of ht (returns_of (viable_none hv) fun y hy => after_loop hy)) <;> intro _ <;>
      simp only [headKind] <;>
      (simp only [typesKinds, List.mem_cons, List.not_mem_nil, or_false] at ht
       rcases ht with h | h | h | h | h | h | h | h | h <;> rw [h] <;> decide)
    have empty : ∀ (p : Nat) (ts : List Token) (σ : List Nat), isEmptyFollow (headKind ts) = true → Stack σ →
        Viable parserAtn (some p) 83 σ (tokenTypes ts) →
        GPrimary parserAtn p σ ts (.types (ts.head?.getD eofTok) true) ts := by
      intro p ts σ ht hσ hv
      have hv' : Viable parserAtn (some p) 37 σ (tokenTypes ts) := by
        obtain ⟨x, y, e, hx, hy⟩ := hv
        exact ⟨x, y, e, alt_empty hx, hy⟩
      refine .types (expr_head (by decide) 37 (by decide +kernel) hv' ?_ ?_ ?_ ?_ nofun nofun nofun)
        (gtypes_empty ?_ (returns_of (viable_none hv) fun y hy => after_loop hy)) <;>
      generalize headKind ts = k at ht <;> revert ht
      · rintro ht - rfl; cases ht
      · rintro ht - rfl; cases ht
      · rintro ht - rfl; cases ht
      · rintro ht -; cases k <;> first | rfl | cases ht
      · cases k <;> first | (intro h; cases h; done) | simp [typesKinds]
    have listed : ∀ {c : List Token} {r : List Token} {s : Nat} {p : Nat} {σ : List Nat} {w : List Nat},
        ListKinds (c.map Token.kind) → Viable parserAtn (some p) 83 σ (tokenTypes r) →
        (∀ x y, Der 10 x → Der 83 y → Derives parserAtn (some p) s (w ++ (x ++ y))) →
        Viable parserAtn (some p) s σ (w ++ tokenTypes (c ++ r)) := by
      intro c r s p σ w hc hv hd
      rw [types_append, ← List.append_assoc]
      exact viable_then (viable_none hv) fun y hy => by
        rw [List.append_assoc]; exact hd _ _ (wordlist_der hc) hy
    refine ⟨?_, ?_, ?_, ?_, ?_, ?_⟩
    · intro p ts x σ h hσ hr
      rw [pExpr] at h
      cases e : pPrimary f ts with
      | none => rw [e] at h; cases h
      | some y =>
        rw [e] at h
        obtain ⟨h1, h2⟩ := hL _ _ _ _ σ h hσ hr
        exact .mk (hP _ _ _ σ e hσ h2) h1
    · intro p ts x σ h hσ hv
      cases ts with
      | nil => cases h; exact empty p [] σ rfl hσ hv
      | cons t ts =>
        by_cases hf : t.kind = .field
        · rw [pPrimary_field _ _ _ hf] at h
          cases ts with
          | nil => cases h; exact plain p t [] σ (by simp [hf, typesKinds]) hσ hv
          | cons lo us =>
            cases hn : isNumKind lo.kind with
            | false => rw [fieldTail_plain _ _ hn] at h; exact hA p t _ x σ hf hn h hσ hv
            | true =>
              obtain ⟨to_, hi, r, rfl, ht, hh, rfl⟩ := fieldTail_num hn h
              have hl : isAfterKind lo.kind = false ∧ lo.kind ≠ .eof := by
                revert hn; cases lo.kind <;> first | (intro h; cases h; done) | (intro; exact ⟨rfl, nofun⟩)
              refine .to_ (expr_head (by decide) 38 (by decide +kernel) ?_ ?_ ?_ ?_ ?_ ?_ nofun nofun) hf hn ht hh
              · simp only [types_cons, hf, ht]
                exact viable_then (x := [_, _, _, _]) (viable_none hv)
                  fun y hy => alt_to (num_kinds.1 hn) (num_kinds.1 hh) hy
              · intro _; simp [headKind, hf]
              · intro _; simp [headKind, hf]
              · intro _; simp [headKind, hf]
              · intro _; simp [headKind, hf, isFnKind]
              · intro _
                rw [types_codes, hf]
                exact no_plain hσ rfl hl.1
        · rw [pPrimary_cons] at h
          revert h
          cases hk : t.kind with
          | field => exact absurd hk hf
          | lparen =>
            intro h
            simp only at h
            split at h
            · rename_i e r ts' he
              split at h
              · rename_i hr
                cases h
                obtain ⟨c, rfl, hc⟩ := tE _ _ _ he
                have hv' : Viable parserAtn (some p) 25 σ (tokenTypes (t :: (c ++ r :: ts'))) := by
                  rw [types_cons, types_append, types_cons, hk, hr, ← List.cons_append]
                  have := viable_then (p := some p) (s := 25)
                    (x := kindToken .lparen :: (codes (c.map Token.kind) ++ [kindToken .rparen])) (viable_none hv)
                    fun y hy => by
                      have := alt_paren (p := some p) (expression_der hc) hy
                      simpa using this
                  simpa using this
                refine .paren (expr_head (by decide) 25 (by decide +kernel) hv' nofun nofun nofun nofun nofun nofun nofun) hk
                  (hE _ _ _ (28 :: σ) he (stack_cons hσ (by decide)) ?_) hr
                show Returns parserAtn (28 :: σ) (tokenTypes (r :: ts'))
                obtain ⟨y, z, e, hy, hz⟩ := viable_none hv
                rw [types_cons, hr]
                have : tokenTypes ts' = y ++ z := e
                rw [this, ← List.cons_append]
                refine .cons ?_ hz
                δ 29 ⟪.atom 34 29⟫
                ε 54; exact after_loop hy
              · cases h
            · cases h
          | kNot =>
            intro h
            simp only at h
            split at h
            · rename_i e ts' he
              cases h
              refine .not_ (expr_head (by decide) 30 (by decide +kernel) ?_ (by simp [headKind, hk]) nofun nofun nofun nofun nofun nofun)
                hk (hE _ _ _ (54 :: σ) he (stack_cons hσ (by decide)) (returns_of (viable_none hv) fun y hy => after_loop hy))
              obtain ⟨c, rfl, hc⟩ := tE _ _ _ he
              rw [types_cons, types_append, hk, ← List.cons_append]
              exact viable_then (viable_none hv) fun y hy => alt_not (expression_der hc) hy
            · cases h
          | fn g =>
            intro h
            simp only at h
            split at h
            · rename_i e ts' he
              cases h
              refine .func (expr_head (by decide) 34 (by decide +kernel) ?_ (by simp [headKind, hk]) (by simp [headKind, hk])
                (by simp [headKind, hk]) nofun nofun nofun nofun)
                hk (hW _ _ (36 :: σ) he (stack_cons hσ (by decide)) (returns_of (viable_none hv) fun y hy => ?_))
              · obtain ⟨c, rfl, hc⟩ := tW _ _ he
                rw [types_cons, hk]
                exact listed (w := [kindToken (.fn g)]) hc hv fun x y hx hy => alt_func (x := x) (y := y) g hx hy
              · ε 54; exact after_loop hy
            · cases h
          | arith op =>
            cases op with
            | sub =>
              intro h
              simp only at h
              split at h
              · rename_i e ts' he
                cases h
                refine .neg (expr_head (by decide) 32 (by decide +kernel) ?_ (by simp [headKind, hk]) (by simp [headKind, hk])
                  nofun nofun nofun nofun nofun)
                  hk (hE _ _ _ (54 :: σ) he (stack_cons hσ (by decide)) (returns_of (viable_none hv) fun y hy => after_loop hy))
                obtain ⟨c, rfl, hc⟩ := tE _ _ _ he
                rw [types_cons, types_append, hk, ← List.cons_append]
                exact viable_then (viable_none hv) fun y hy => alt_neg (expression_der hc) hy
              · cases h
            | _ => intro h; cases h; exact empty p (t :: ts) σ (by simp only [headKind, hk]; rfl) hσ hv
          | _ =>
            intro h
            first
              | (cases h; done)
              | (cases h; exact plain p t _ σ (by simp [hk, typesKinds]) hσ hv)
              | (cases h; exact empty p (t :: ts) σ (by simp only [headKind, hk]; rfl) hσ hv)
    · intro p t ts x σ hf hn h hσ hv
      cases ts with
      | nil => cases h; exact plain p t [] σ (by simp [hf, typesKinds]) hσ hv
      | cons u us =>
        rw [pAfterField_cons] at h
        have n5 : isAfterKind u.kind = false → ¬ Viable parserAtn (some p) 37 σ (tokenTypes (t :: u :: us)) := by
          intro hu
          rw [types_codes, hf]
          exact no_plain hσ rfl hu
        have n6 : ¬ Viable parserAtn (some p) 38 σ (tokenTypes (t :: u :: us)) := by
          intro h
          rw [types_codes, List.map_cons, List.cons_append] at h
          rw [headKind] at hn
          rw [no_range h] at hn
          cases hn
        have n7 : (u.kind == .kNot || u.kind == .kIn) = false →
            ¬ Viable parserAtn (some p) 43 σ (tokenTypes (t :: u :: us)) := by
          intro hu h
          rw [types_codes, List.map_cons, List.cons_append] at h
          rw [no_in h] at hu
          cases hu
        have pred : ∀ i s, 5 < i → i ≤ 8 → parserAtn.alternative 53 i = some s → isAfterKind u.kind = false →
            (7 < i → (u.kind == .kNot || u.kind == .kIn) = false) →
            Viable parserAtn (some p) s σ (tokenTypes (t :: u :: us)) →
            Predicts parserAtn 53 (some p) σ (tokenTypes (t :: u :: us)) i := fun i s h5 h8 hs ha h7 h =>
          expr_head h8 s hs h (by simp [headKind, hf]) (by simp [headKind, hf]) (by simp [headKind, hf])
            (by simp [headKind, hf, isFnKind]) (fun _ => n5 ha) (fun _ => n6) (fun h => n7 (h7 h))
        have ret : ∀ d, (∀ y, Der 83 y → Der d y) → Returns parserAtn (d :: σ) (tokenTypes x.2) :=
          fun d h => returns_of (viable_none hv) h
        have r52 : ∀ y, Der 83 y → Der 52 y := by
          intro y hy; ε 54; exact after_loop hy
        cases hk : u.kind with
        | kIn =>
          rw [hk] at h
          simp only at h
          split at h
          · rename_i es ts' he
            cases h
            refine .in_ (pred 7 43 (by decide) (by decide) (by decide +kernel) (by rw [hk]; rfl) nofun ?_) hf hk
              (hW _ _ (54 :: σ) he (stack_cons hσ (by decide)) (ret 54 fun y hy => after_loop hy))
            obtain ⟨c, rfl, hc⟩ := tW _ _ he
            rw [types_cons, types_cons, hk, hf]
            exact listed (w := [kindToken .field, kindToken .kIn]) hc hv fun x y hx hy => alt_in (x := x) (y := y) hx hy
          · cases h
        | kNot =>
          rw [hk] at h
          cases us with
          | nil => cases h
          | cons v vs =>
            simp only at h
            split at h
            · rename_i hvk
              split at h
              · rename_i es ts' he
                cases h
                refine .notIn (pred 7 43 (by decide) (by decide) (by decide +kernel) (by rw [hk]; rfl) nofun ?_) hf hk hvk
                  (hW _ _ (54 :: σ) he (stack_cons hσ (by decide)) (ret 54 fun y hy => after_loop hy))
                obtain ⟨c, rfl, hc⟩ := tW _ _ he
                rw [types_cons, types_cons, types_cons, hk, hf, hvk]
                exact listed (w := [kindToken .field, kindToken .kNot, kindToken .kIn]) hc hv
                  fun x y hx hy => alt_notIn (x := x) (y := y) hx hy
              · cases h
            · cases h
        | cAll =>
          rw [hk] at h
          simp only at h
          split at h
          · rename_i es ts' he
            cases h
            refine .all (pred 8 49 (by decide) (by decide) (by decide +kernel) (by rw [hk]; rfl) (fun _ => by rw [hk]; rfl) ?_)
              hf hk (hW _ _ (52 :: σ) he (stack_cons hσ (by decide)) (ret 52 r52))
            obtain ⟨c, rfl, hc⟩ := tW _ _ he
            rw [types_cons, types_cons, hk, hf]
            exact listed (w := [kindToken .field, kindToken .cAll]) hc hv
              fun x y hx hy => alt_array (x := x) (y := y) (by simp [arrayKinds]) hx hy
          · cases h
        | cAny =>
          rw [hk] at h
          simp only at h
          split at h
          · rename_i es ts' he
            cases h
            refine .any (pred 8 49 (by decide) (by decide) (by decide +kernel) (by rw [hk]; rfl) (fun _ => by rw [hk]; rfl) ?_)
              hf hk (hW _ _ (52 :: σ) he (stack_cons hσ (by decide)) (ret 52 r52))
            obtain ⟨c, rfl, hc⟩ := tW _ _ he
            rw [types_cons, types_cons, hk, hf]
            exact listed (w := [kindToken .field, kindToken .cAny]) hc hv
              fun x y hx hy => alt_array (x := x) (y := y) (by simp [arrayKinds]) hx hy
          · cases h
        | _ => rw [hk] at h; cases h; exact plain p t _ σ (by simp [hf, typesKinds]) hσ hv
    · intro p l ts x σ h hσ hr
      cases ts with
      | nil =>
        cases h
        obtain ⟨h1, h2⟩ := loop_leaves (p := p) (ts := []) hr nofun
        exact ⟨.done h1, h2⟩
      | cons t ts =>
        rw [pLoop] at h
        cases hb : binTok t.kind with
        | none =>
          rw [hb] at h
          cases h
          obtain ⟨h1, h2⟩ := loop_leaves (p := p) (ts := t :: ts) hr (fun b h => by rw [headKind, hb] at h; cases h)
          exact ⟨.done h1, h2⟩
        | some b =>
          rw [hb] at h
          simp only at h
          split at h
          · rename_i hp
            split at h
            · rename_i r ts' he
              obtain ⟨g1, v1⟩ := hL _ _ _ _ σ h hσ hr
              obtain ⟨i, a, b', c', d, hrow⟩ := bin_row hb
              obtain ⟨-, h2, -, -, -, h6⟩ := oper_row hrow
              have ge : ∀ d, afterStates.contains d = true → (∀ p w, Derives parserAtn p 83 w → Derives parserAtn p d w) →
                  GExpr parserAtn (b.prec + 1) (d :: σ) ts r ts' := fun d hd h6 =>
                hE _ _ _ (d :: σ) he (stack_cons hσ hd) (returns_of (viable_none v1) (h6 none))
              have hva : Viable parserAtn (some p) a σ (tokenTypes (t :: ts)) := by
                obtain ⟨c, rfl, hc⟩ := tE _ _ _ he
                rw [types_cons, types_append, ← List.cons_append]
                refine viable_then (viable_none v1) fun y hy => oper_step hrow ?_ (expression_der hc) hy
                intro n hn
                cases hn
                exact hp
              obtain ⟨p83, v83⟩ := loop_more h2 hva
              have p81 := oper_pred hrow hva
              refine ⟨?_, v83⟩
              have d58 : ∀ p w, Derives parserAtn p 83 w → Derives parserAtn p 58 w := by
                intro p w h; ε 82; exact loop_back h
              have d80 : ∀ p w, Derives parserAtn p 83 w → Derives parserAtn p 80 w := by
                intro p w h; ε 82; exact loop_back h
              have d82 : ∀ p w, Derives parserAtn p 83 w → Derives parserAtn p 82 w := fun p w h => loop_back h
              cases hk : t.kind with
              | cmp op =>
                rw [hk] at hb hrow
                cases hb
                have : i = 1 := by revert hrow; cases op <;> simp [operRows] <;> omega
                subst this
                exact .cmp p83 p81 hp hk (ge 58 (by decide) d58) g1
              | arith op =>
                rw [hk] at hb hrow
                cases hb
                have : (i, (BinTok.arith op).prec, op) ∈ arithAlts := by
                  revert hrow; cases op <;> simp [operRows, arithAlts, BinTok.prec] <;> omega
                exact .arith p83 p81 this hp hk (ge 82 (by decide) d82) g1
              | kAnd =>
                rw [hk] at hb hrow
                cases hb
                have : i = 8 := by revert hrow; simp [operRows]; omega
                subst this
                exact .and p83 p81 hp hk (ge 80 (by decide) d80) g1
              | kOr =>
                rw [hk] at hb hrow
                cases hb
                have : i = 8 := by revert hrow; simp [operRows]; omega
                subst this
                exact .or p83 p81 hp hk (ge 80 (by decide) d80) g1
              | _ => rw [hk] at hb; cases hb
            · cases h
          · rename_i hp
            cases h
            obtain ⟨h1, h2⟩ := loop_leaves (p := p) (ts := t :: ts) hr
              (fun b' h => by rw [headKind, hb] at h; cases h; exact hp)
            exact ⟨.done h1, h2⟩
    · intro ts x σ h hσ hr
      cases ts with
      | nil => cases h
      | cons l ts =>
        rw [pWordlist] at h
        split at h
        · rename_i hl
          split at h
          · rename_i e ts' he
            split at h
            · rename_i es r hm
              cases h
              obtain ⟨c, rfl, hc⟩ := tM _ _ hm
              have h103 : Der 103 (codes (c.map Token.kind)) := after_first (more_der hc)
              refine .mk hl (no_space (s := 94) (t := 97) (by decide +kernel) (.inl rfl) (by decide +kernel) ?_)
                (hE _ _ _ (103 :: σ) he (stack_cons hσ (by decide)) ?_) (hM _ _ σ hm hσ hr)
              · obtain ⟨c1, rfl, hc1⟩ := tE _ _ _ he
                rw [types_append, types_append, ← List.append_assoc]
                refine ⟨_, _, rfl, ?_, hr⟩
                ε 99
                exact der_call 2 103 0 (by decide +kernel) (expression_der hc1) h103
              · show Returns parserAtn (103 :: σ) (tokenTypes (c ++ r))
                rw [types_append]
                exact .cons h103 hr
            · cases h
          · cases h
        · cases h
    · intro ts x σ h hσ hr
      cases ts with
      | nil => cases h
      | cons l ts =>
        rw [pMore] at h
        split at h
        · rename_i hl
          cases h
          exact .done hl
        · split at h
          · rename_i hl
            split at h
            · rename_i e ts' he
              split at h
              · rename_i es r hm
                cases h
                obtain ⟨c, rfl, hc⟩ := tM _ _ hm
                have h117 : Der 117 (codes (c.map Token.kind)) := after_item (more_der hc)
                refine .more hl (no_space (s := 108) (t := 111) (by decide +kernel) (.inr rfl) (by decide +kernel) ?_)
                  (hE _ _ _ (117 :: σ) he (stack_cons hσ (by decide)) ?_) (hM _ _ σ hm hσ hr)
                · obtain ⟨c1, rfl, hc1⟩ := tE _ _ _ he
                  rw [types_append, types_append, ← List.append_assoc]
                  refine ⟨_, _, rfl, ?_, hr⟩
                  ε 113
                  exact der_call 2 117 0 (by decide +kernel) (expression_der hc1) h117
                · show Returns parserAtn (117 :: σ) (tokenTypes (c ++ r))
                  rw [types_append]
                  exact .cons h117 hr
              · cases h
            · cases h
          · cases h

end BoolParser
