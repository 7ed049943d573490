import Verif.Lemmas.ParserUnique
import Verif.Model.Recovery
/-!
# The token sets of error recovery are those of the automaton
-/

namespace BoolParser

theorem next_iff {s : Nat} {k : TK} (A : List Nat) (T : TK → Bool) (hA : First A T) (hs : A.contains s = true)
    (hw : T k = true → NextTok parserAtn s k) : T k = true ↔ NextTok parserAtn s k :=
  ⟨hw, fun ⟨ks, h⟩ => first_of hA h hs (k :: ks) rfl k rfl⟩

/-- An operand that is left out. -/
theorem empty_operand : Der 2 [] := by ε 53; ε 37; exact alt_empty loop_exit

theorem next_of {s : Nat} {k : TK} {w : List Nat} (ks : List TK) (e : w = (k :: ks).map kindToken) (h : Der s w) :
    NextTok parserAtn s k := ⟨ks, e ▸ h⟩

theorem bin_next {k : TK} (h : isBinKind k = true) : Der 83 [kindToken k] := by
  rw [isBinKind, Option.isSome_iff_exists] at h
  obtain ⟨b, hb⟩ := h
  obtain ⟨i, a, b', c, d, hrow⟩ := bin_row hb
  exact oper_loop (x := []) (y := []) hrow (by intro n h; cases h) empty_operand loop_exit

/-- The states to return to, by frame. -/
def frameStates : List (Frame × Nat) :=
  [(.eof, 23), (.rparen, 28), (.items, 103), (.items, 117), (.ops, 54), (.ops, 58), (.ops, 80), (.ops, 82), (.ops, 36),
   (.ops, 52), (.ops, 42)]

def opsStates : List Nat := [54, 58, 80, 82, 36, 52, 42, 83, 81, 84, 85, 3, 55, 59, 62, 65, 68, 71, 74, 77, 56, 60, 63, 66, 69,
  72, 75, 78, 4, 86, 18, 142]

theorem ops_state {s : Nat} (h : (Frame.ops, s) ∈ frameStates) {w : List Nat} (hw : Der 83 w) : Der s w := by
  simp only [frameStates, List.mem_cons, List.not_mem_nil, or_false, Prod.mk.injEq, true_and, reduceCtorEq, false_and,
    false_or] at h
  rcases h with rfl | rfl | rfl | rfl | rfl | rfl | rfl
  · exact after_loop hw
  · ε 82; exact loop_back hw
  · ε 82; exact loop_back hw
  · exact loop_back hw
  · ε 54; exact after_loop hw
  · ε 54; exact after_loop hw
  · ε 54; exact after_loop hw

theorem frame_next {fr : Frame} {s : Nat} (h : (fr, s) ∈ frameStates) (k : TK) :
    fr.has k = true ↔ NextTok parserAtn s k := by
  have items : ∀ s, (∀ w, Der 122 w → Der s w) → Frame.has .items k = true → NextTok parserAtn s k := by
    intro s hs hk
    simp only [Frame.has, Bool.or_eq_true, beq_iff_eq] at hk
    rcases hk with rfl | rfl
    · refine next_of [.rparen] rfl (hs _ ?_)
      exact items_more (x := []) (y := [kindToken .rparen]) empty_operand (after_item items_end)
    · exact next_of [] rfl (hs _ items_end)
  cases fr with
  | ops =>
    refine next_iff opsStates isBinKind (by unfold First; krfl) ?_ fun hk => next_of [] rfl (ops_state h (bin_next hk))
    simp only [frameStates, List.mem_cons, List.not_mem_nil, or_false, Prod.mk.injEq, true_and, reduceCtorEq, false_and,
      false_or] at h
    rcases h with rfl | rfl | rfl | rfl | rfl | rfl | rfl <;> decide
  | eof =>
    simp only [frameStates, List.mem_cons, List.not_mem_nil, or_false, Prod.mk.injEq, true_and, reduceCtorEq, false_and,
      false_or] at h
    subst h
    refine next_iff [23] _ (by unfold First; krfl) (by decide) fun hk => ?_
    simp only [Frame.has, beq_iff_eq] at hk
    subst hk
    refine next_of [] rfl ?_
    δ 24 ⟪.atom 0 24⟫
    ε 1; exact der_stop (by decide +kernel)
  | rparen =>
    simp only [frameStates, List.mem_cons, List.not_mem_nil, or_false, Prod.mk.injEq, true_and, reduceCtorEq, false_and,
      false_or] at h
    subst h
    refine next_iff [28] _ (by unfold First; krfl) (by decide) fun hk => ?_
    simp only [Frame.has, beq_iff_eq] at hk
    subst hk
    refine next_of [] rfl ?_
    δ 29 ⟪.atom 34 29⟫
    ε 54; exact after_loop loop_exit
  | items =>
    simp only [frameStates, List.mem_cons, List.not_mem_nil, or_false, Prod.mk.injEq, true_and, reduceCtorEq, false_and,
      false_or] at h
    rcases h with rfl | rfl
    · exact next_iff [103, 101, 100, 104, 122, 120, 106, 123, 125] _ (by unfold First; krfl) (by decide)
        (items _ fun w hw => after_first hw)
    · exact next_iff [117, 115, 114, 118, 121, 124, 122, 120, 106, 123, 125] _ (by unfold First; krfl) (by decide)
        (items _ fun w hw => after_item hw)

/-- What an expression can begin with. -/
def exprStates : List Nat := [2, 53, 25, 30, 32, 34, 37, 38, 43, 49, 26, 8, 16, 54, 90, 140, 83, 131, 132, 133, 134, 135, 136,
  137, 138, 139, 81, 84, 20, 141, 55, 59, 62, 65, 68, 71, 74, 77, 3, 144, 17, 56, 60, 63, 66, 69, 72, 75, 78, 4, 18, 86, 142]

theorem expression_starts {k : TK} (h : inListKind k = true) :
    k = .comma ∨ k = .rparen ∨ ∃ ks, Expression (k :: ks) := by
  have bin : k ∈ betweenKinds → ∃ ks, Expression (k :: ks) := fun h => ⟨[], .between (l := []) h .omitted .omitted⟩
  have typ : k ∈ typesKinds → ∃ ks, Expression (k :: ks) := fun h => ⟨[], .types h⟩
  cases k with
  | comma => exact .inl rfl
  | rparen => exact .inr (.inl rfl)
  | lparen => exact .inr (.inr ⟨_, .paren .omitted⟩)
  | kNot => exact .inr (.inr ⟨_, .not_ .omitted⟩)
  | fn f => exact .inr (.inr ⟨_, .func (es := []) .omitted nofun⟩)
  | cmp op => exact .inr (.inr (bin (by cases op <;> simp [betweenKinds])))
  | arith op => exact .inr (.inr (bin (by cases op <;> simp [betweenKinds])))
  | kAnd => exact .inr (.inr (bin (by simp [betweenKinds])))
  | kOr => exact .inr (.inr (bin (by simp [betweenKinds])))
  | _ => first | (cases h; done) | exact .inr (.inr (typ (by simp [typesKinds])))

/-- Inside a list: after `(` and after `,`. -/
theorem list_next {s : Nat} (h : s = 96 ∨ s = 110) (k : TK) : inListKind k = true ↔ NextTok parserAtn s k := by
  have wit : ∀ d, (∀ w, Der 122 w → Der d w) → (∀ x y, Der 2 x → Der d y → Der s (x ++ y)) →
      inListKind k = true → NextTok parserAtn s k := by
    intro d hd hs hk
    rcases expression_starts hk with rfl | rfl | ⟨ks, hx⟩
    · refine next_of [.rparen] rfl (hs [] _ empty_operand (hd _ ?_))
      exact items_more (x := []) (y := [kindToken .rparen]) empty_operand (after_item items_end)
    · exact next_of [] rfl (hs [] _ empty_operand (hd _ items_end))
    · refine next_of (ks ++ [.rparen]) ?_ (hs _ _ (expression_der hx) (hd _ items_end))
      simp [codes]
  rcases h with rfl | rfl
  · refine next_iff ([96, 94, 97, 93, 99, 103, 101, 104, 100, 122, 120, 123, 106, 125] ++ exprStates) _
      (by unfold First; krfl) (by decide) (wit 103 (fun w hw => after_first hw) fun x y hx hy => ?_)
    ε 97; ε 99; exact der_call 2 103 0 (by decide +kernel) hx hy
  · refine next_iff ([110, 108, 111, 107, 113, 117, 115, 118, 114, 121, 124, 122, 120, 123, 106, 125] ++ exprStates) _
      (by unfold First; krfl) (by decide) (wit 117 (fun w hw => after_item hw) fun x y hx hy => ?_)
    ε 111; ε 113; exact der_call 2 117 0 (by decide +kernel) hx hy

/-- After `TO`, after `IN`. -/
theorem upper_next (k : TK) : isNumKind k = true ↔ NextTok parserAtn 41 k := by
  refine next_iff [41, 14, 129] _ (by unfold First; krfl) (by decide) fun hk => next_of [] rfl ?_
  refine der_call (x := [kindToken k]) (y := []) 14 42 0 (by decide +kernel) (num_tok (num_kinds.1 hk)) ?_
  ε 54; exact after_loop loop_exit

theorem in_next (k : TK) : (k == .lparen) = true ↔ NextTok parserAtn 48 k := by
  refine next_iff (s := 48) [48, 10, 92] (fun k => k == .lparen) (by unfold First; krfl) (by decide) fun hk => ?_
  rw [beq_iff_eq] at hk
  subst hk
  refine next_of [.rparen] rfl ?_
  exact der_call (x := [kindToken .lparen, kindToken .rparen]) (y := []) 10 54 0 (by decide +kernel)
    (list_start (x := []) empty_operand items_end) (after_loop loop_exit)

/-- The stack of return states shows the frames of the recovery model. -/
def Framed (σ : List Nat) (ctx : List Frame) : Prop := List.Forall₂ (fun s fr => (fr, s) ∈ frameStates) σ ctx

theorem frame_need {fr : Frame} {s : Nat} (h : (fr, s) ∈ frameStates) (hf : fr ≠ .ops) {w : List Nat} (hw : Der s w) :
    w ≠ [] := by
  have key : ∀ x ∈ frameStates, x.1 ≠ .ops → needStates.contains x.2 = true := by decide
  exact need_ne hw (key _ h hf)

/-- Every frame can be completed. -/
theorem frame_end {fr : Frame} {s : Nat} (h : (fr, s) ∈ frameStates) : ∃ ks, Der s (codes ks) := by
  cases fr with
  | ops => exact ⟨[], ops_state h loop_exit⟩
  | eof => obtain ⟨ks, hk⟩ := (frame_next h .eof).1 rfl; exact ⟨_, hk⟩
  | rparen => obtain ⟨ks, hk⟩ := (frame_next h .rparen).1 rfl; exact ⟨_, hk⟩
  | items => obtain ⟨ks, hk⟩ := (frame_next h .rparen).1 rfl; exact ⟨_, hk⟩

theorem stack_end {σ : List Nat} {ctx : List Frame} (h : Framed σ ctx) : ∃ ks, Returns parserAtn σ (codes ks) := by
  induction h with
  | nil => exact ⟨[], .nil⟩
  | cons hs _ ih =>
    obtain ⟨x, hx⟩ := frame_end hs
    obtain ⟨y, hy⟩ := ih
    exact ⟨x ++ y, codes_append x y ▸ .cons hx hy⟩

/-- What can follow in a context (`ATN.nextTokens(state, ctx)`): with the start of the parse at the bottom. -/
theorem look_next {σ : List Nat} {ctx : List Frame} (h : Framed σ ctx) (k : TK) (hc : .eof ∈ ctx) :
    lookAfter ctx k = true ↔ ∃ ks : List TK, Returns parserAtn σ ((k :: ks).map kindToken) := by
  have head : ∀ {fr : Frame} {s : Nat} {σ : List Nat} {ctx : List Frame}, (fr, s) ∈ frameStates → Framed σ ctx →
      fr.has k = true → ∃ ks : List TK, Returns parserAtn (s :: σ) ((k :: ks).map kindToken) := by
    intro fr s σ ctx hs hσ hk
    obtain ⟨x, hx⟩ := (frame_next hs k).1 hk
    obtain ⟨y, hy⟩ := stack_end hσ
    exact ⟨x ++ y, by rw [← List.cons_append, List.map_append]; exact .cons hx hy⟩
  have other : ∀ {fr : Frame} {s : Nat} {σ : List Nat} {ctx : List Frame}, (fr, s) ∈ frameStates → Framed σ ctx →
      fr ≠ .ops → (fr.has k = true ↔ ∃ ks : List TK, Returns parserAtn (s :: σ) ((k :: ks).map kindToken)) := by
    intro fr s σ ctx hs hσ hf
    refine ⟨head hs hσ, ?_⟩
    rintro ⟨ks, hk⟩
    generalize hw : (k :: ks).map kindToken = w at hk
    cases hk with
    | cons hx hy =>
      obtain ⟨u, v, e, hu, hv⟩ := List.map_eq_append_iff.1 hw
      subst hu
      cases u with
      | nil => exact absurd rfl (frame_need hs hf hx)
      | cons c u =>
        cases e
        exact (frame_next hs _).2 ⟨u, hx⟩
  induction h with
  | nil => cases hc
  | @cons s fr σ ctx hs hσ ih =>
    cases fr with
    | ops =>
      have hc' : Frame.eof ∈ ctx := by simpa using hc
      have ih := ih hc'
      rw [lookAfter, Bool.or_eq_true]
      constructor
      · rintro (hk | hk)
        · exact head hs hσ hk
        · obtain ⟨ks, hk⟩ := ih.1 hk
          exact ⟨ks, .cons (x := []) (ops_state hs loop_exit) hk⟩
      · rintro ⟨ks, hk⟩
        generalize hw : (k :: ks).map kindToken = w at hk
        cases hk with
        | cons hx hy =>
          obtain ⟨u, v, e, hu, hv⟩ := List.map_eq_append_iff.1 hw
          subst hu
          subst hv
          cases u with
          | nil => exact .inr (ih.2 ⟨ks, by rw [List.nil_append] at e; rw [e]; exact hy⟩)
          | cons c u =>
            cases e
            exact .inl ((frame_next hs _).2 ⟨u, hx⟩)
    | eof => exact other hs hσ nofun
    | rparen => exact other hs hσ nofun
    | items => exact other hs hσ nofun

/-- The union over the active invocations (`DefaultErrorStrategy.getErrorRecoverySet`). -/
theorem recovery_next {σ : List Nat} {ctx : List Frame} (h : Framed σ ctx) (k : TK) :
    recoverySet ctx k = true ↔ ∃ s ∈ σ, NextTok parserAtn s k := by
  induction h with
  | nil => simp [recoverySet]
  | cons hs _ ih =>
    simp only [recoverySet, List.any_cons, Bool.or_eq_true, List.mem_cons, exists_eq_or_imp] at ih ⊢
    rw [frame_next hs, ih]

end BoolParser
