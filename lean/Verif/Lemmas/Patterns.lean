import Verif.Spec.Grammar
/-!
# Sequences of tokens that occur in no text of the grammar
-/

namespace BoolParser

theorem prefix_before {α : Type} {r : List α} {o : α} : {p : List α} → (l : List α) → p <+: l ++ o :: r → o ∉ p → p <+: l
  | [], _, _, _ => List.nil_prefix
  | y :: p, [], h, ho => by
    rw [List.nil_append, List.cons_prefix_cons] at h
    exact absurd (by simp [h.1]) ho
  | y :: p, x :: l, h, ho => by
    rw [List.cons_append, List.cons_prefix_cons] at h
    rw [List.cons_prefix_cons]
    exact ⟨h.1, prefix_before l h.2 (fun h => ho (by simp [h]))⟩

theorem infix_around {α : Type} {p r : List α} {o : α} : (l : List α) → p <:+: l ++ o :: r → o ∉ p → p <:+: l ∨ p <:+: r
  | [], h, ho => by
    rcases List.infix_cons_iff.1 h with h | h
    · exact .inl (prefix_before [] h ho).isInfix
    · exact .inr h
  | x :: l, h, ho => by
    rw [List.cons_append, List.infix_cons_iff] at h
    rcases h with h | h
    · exact .inl (prefix_before (x :: l) (by simpa using h) ho).isInfix
    · rcases infix_around l h ho with h | h
      · exact .inl (h.trans (List.suffix_cons _ _).isInfix)
      · exact .inr h

theorem infix_tail {α : Type} {p r : List α} {o x : α} (h : x :: p <:+: o :: r) (ho : x ≠ o) : x :: p <:+: r := by
  rcases List.infix_cons_iff.1 h with h | h
  · rw [List.cons_prefix_cons] at h; exact absurd h.1 ho
  · exact h

/-- What a sequence of tokens must be like to occur in no text of the grammar, as far as it is a matter of the tokens
themselves. -/
structure Stray (x : TK) (p : List TK) : Prop where
  long : p ≠ []
  ops : ∀ o ∈ betweenKinds, o ∉ x :: p
  rparen : TK.rparen ∉ x :: p
  comma : TK.comma ∉ x :: p
  starts : x ≠ .kNot ∧ x ≠ .lparen ∧ x ≠ .kIn ∧ x ≠ .cAny ∧ x ≠ .cAll ∧ ∀ f, x ≠ .fn f
  range : ∀ lo ∈ numericKinds, ∀ hi ∈ numericKinds, ¬ x :: p <:+: [.field, lo, .kTo, hi]
  after : x = .field → p.head? ≠ some .kIn ∧ p.head? ≠ some .cAny ∧ p.head? ≠ some .cAll ∧ ∀ q, p ≠ .kNot :: .kIn :: q
  last : p ≠ [.kNot]

theorem stray_list {x : TK} {p : List TK} (S : Stray x p) {e : List TK} {es : List (List TK)} (he : ¬ x :: p <:+: e)
    (hes : ∀ y ∈ es, ¬ x :: p <:+: y) : ¬ x :: p <:+: wordlist e es := by
  intro h
  have h := infix_tail h S.starts.2.1
  have rest : ∀ es : List (List TK), (∀ y ∈ es, ¬ x :: p <:+: y) → ∀ l : List TK, ¬ x :: p <:+: l →
      ¬ x :: p <:+: l ++ (es.flatMap (fun x => .comma :: x) ++ [.rparen]) := by
    intro es
    induction es with
    | nil =>
      intro _ l hl h
      rcases infix_around l (by simpa using h) S.rparen with h | h
      · exact hl h
      · simp at h
    | cons y es ih =>
      intro hy l hl h
      rw [List.flatMap_cons, List.cons_append, List.cons_append, List.append_assoc] at h
      rcases infix_around l h S.comma with h | h
      · exact hl h
      · exact ih (fun z hz => hy z (by simp [hz])) y (hy y (by simp)) h
  exact rest es hes e he h

theorem stray_nowhere {x : TK} {p : List TK} (S : Stray x p) {ks : List TK} (h : Expression ks) : ¬ x :: p <:+: ks := by
  induction h with
  | paren _ ih =>
    intro h
    rcases infix_around _ (infix_tail h S.starts.2.1) S.rparen with h | h
    · exact ih h
    · simp at h
  | not_ _ ih => exact fun h => ih (infix_tail h S.starts.1)
  | minus _ ih =>
    intro h
    refine ih (infix_tail h ?_)
    intro e
    exact S.ops (.arith .sub) (by simp [betweenKinds]) (by simp [e])
  | between ho _ _ ih1 ih2 =>
    intro h
    rcases infix_around _ h (S.ops _ ho) with h | h
    · exact ih1 h
    · exact ih2 h
  | func _ _ ih1 ih2 => exact fun h => stray_list S ih1 ih2 (infix_tail h (S.starts.2.2.2.2.2 _))
  | types hk =>
    intro h
    have h1 := h.length_le
    have h2 := List.length_pos_iff.2 S.long
    simp only [List.length_cons, List.length_nil] at h1
    omega
  | omitted => intro h; simp at h
  | to_ h1 h2 => exact S.range _ h1 _ h2
  | in_ _ _ ih1 ih2 =>
    intro h
    rcases List.infix_cons_iff.1 h with h | h
    · cases p with
      | nil => exact S.long rfl
      | cons y p =>
        rw [List.cons_prefix_cons, List.cons_prefix_cons] at h
        exact (S.after h.1).1 (by rw [h.2.1]; rfl)
    · exact stray_list S ih1 ih2 (infix_tail h S.starts.2.2.1)
  | notIn _ _ ih1 ih2 =>
    intro h
    rcases List.infix_cons_iff.1 h with h | h
    · match p, S with
      | [], S => exact S.long rfl
      | [y], S =>
        rw [List.cons_prefix_cons, List.cons_prefix_cons] at h
        exact S.last (by rw [h.2.1])
      | y :: z :: p, S =>
        rw [List.cons_prefix_cons, List.cons_prefix_cons, List.cons_prefix_cons] at h
        exact (S.after h.1).2.2.2 p (by rw [h.2.1, h.2.2.1])
    · exact stray_list S ih1 ih2 (infix_tail (infix_tail h S.starts.1) S.starts.2.2.1)
  | array ho _ _ ih1 ih2 =>
    intro h
    rcases List.infix_cons_iff.1 h with h | h
    · cases p with
      | nil => exact S.long rfl
      | cons y p =>
        rw [List.cons_prefix_cons, List.cons_prefix_cons] at h
        simp only [arrayKinds, List.mem_cons, List.not_mem_nil, or_false] at ho
        rcases ho with rfl | rfl
        · exact (S.after h.1).2.1 (by rw [h.2.1]; rfl)
        · exact (S.after h.1).2.2.1 (by rw [h.2.1]; rfl)
    · refine stray_list S ih1 ih2 (infix_tail h ?_)
      simp only [arrayKinds, List.mem_cons, List.not_mem_nil, or_false] at ho
      rcases ho with rfl | rfl
      · exact S.starts.2.2.2.1
      · exact S.starts.2.2.2.2.1

theorem stray_numbers {a b : TK} (ha : a ∈ numericKinds) (hb : b ∈ numericKinds) : Stray a [b] := by
  simp only [numericKinds, List.mem_cons, List.not_mem_nil, or_false] at ha hb
  rcases ha with rfl | rfl <;> rcases hb with rfl | rfl <;>
    exact ⟨by decide, by decide, by decide, by decide, ⟨by decide, by decide, by decide, by decide, by decide, nofun⟩,
      by decide, nofun, by decide⟩

theorem stray_date {b : TK} (hb : b = .date ∨ b = .datetime) : Stray .kTo [b] := by
  rcases hb with rfl | rfl <;>
    exact ⟨by decide, by decide, by decide, by decide, ⟨by decide, by decide, by decide, by decide, by decide, nofun⟩,
      by decide, nofun, by decide⟩

theorem stray_not : Stray .field [.kNot, .lparen] :=
  ⟨by decide, by decide, by decide, by decide, ⟨by decide, by decide, by decide, by decide, by decide, nofun⟩,
    by decide, fun _ => ⟨by decide, by decide, by decide, nofun⟩, by decide⟩

end BoolParser
