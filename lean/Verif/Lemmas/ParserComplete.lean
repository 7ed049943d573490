import Verif.Lemmas.ParserLang
/-!
# The language of the parser's automaton is the published grammar: completeness
-/

namespace BoolParser

/-- Token types of kinds. -/
def codes (ks : List TK) : List Nat := ks.map kindToken

theorem codes_append (x y : List TK) : codes (x ++ y) = codes x ++ codes y := List.map_append

abbrev Der (s : Nat) (w : List Nat) : Prop := Derives parserAtn none s w

variable {p : Option Nat} {s t k q st fo i : Nat} {w x y : List Nat}

theorem der_eps (t : Nat) (h : ATrans.eps t ∈ parserAtn.transitions s) (d : Derives parserAtn p t w) :
    Derives parserAtn p s w := .eps h d

theorem der_read (t : Nat) (tr : ATrans) (h : tr ∈ parserAtn.transitions s) (ht : tr.target k = some t) (d : Der t w) :
    Derives parserAtn p s (k :: w) := .read h ht d

theorem der_call (st fo q : Nat) (h : ATrans.rule st fo q ∈ parserAtn.transitions s) (d : Der st x) (e : Der fo y) :
    Der s (x ++ y) := .call h d (by rw [ite_self]; exact e)

theorem der_call_ne (st fo q : Nat) (h : ATrans.rule st fo q ∈ parserAtn.transitions s) (hx : x ≠ []) (d : Der st x)
    (e : Der fo y) : Derives parserAtn p s (x ++ y) := .call h d (by rw [if_neg hx]; exact e)

theorem der_prec (q t : Nat) (h : ATrans.prec q t ∈ parserAtn.transitions s) (d : Der t w) : Der s w :=
  .prec h nofun d

macro "ε" n:num : tactic => `(tactic| refine der_eps $n (by decide +kernel) ?_)
macro "δ" n:num "⟪" tr:term "⟫" : tactic => `(tactic| refine der_read $n $tr (by decide +kernel) (by decide +kernel) ?_)

theorem der_stop (h : parserAtn.isStop s = true) : Derives parserAtn p s [] := .stop h

/-- The operator loop may be left. -/
theorem loop_exit : Derives parserAtn p 83 [] := by ε 84; ε 3; exact der_stop (by decide +kernel)

theorem after_loop (h : Derives parserAtn p 83 w) : Derives parserAtn p 54 w := by ε 83; exact h

theorem loop_back (h : Derives parserAtn p 83 w) : Derives parserAtn p 82 w := by ε 85; ε 83; exact h

/-- The operators: kind, alternative, predicate state, precedence, state before the operator, state before the right
operand, state after it. -/
def operRows : List (TK × Nat × Nat × Nat × Nat × Nat × Nat) :=
  [(.cmp .gt, 1, 55, 14, 56, 57, 58), (.cmp .ge, 1, 55, 14, 56, 57, 58), (.cmp .lt, 1, 55, 14, 56, 57, 58),
   (.cmp .le, 1, 55, 14, 56, 57, 58), (.cmp .eq, 1, 55, 14, 56, 57, 58), (.cmp .ne, 1, 55, 14, 56, 57, 58),
   (.arith .exp, 2, 59, 12, 60, 61, 82), (.arith .div, 3, 62, 11, 63, 64, 82), (.arith .mul, 4, 65, 10, 66, 67, 82),
   (.arith .mod, 5, 68, 9, 69, 70, 82), (.arith .add, 6, 71, 8, 72, 73, 82), (.arith .sub, 7, 74, 7, 75, 76, 82),
   (.kAnd, 8, 77, 5, 78, 79, 80), (.kOr, 8, 77, 5, 78, 79, 80)]

/-- From the state before an operator, over the operator and its right operand, back to the loop. -/
theorem oper_row {k : TK} {i a q b c d : Nat} (h : (k, i, a, q, b, c, d) ∈ operRows) :
    parserAtn.alternative 81 i = some a ∧ ATrans.eps a ∈ parserAtn.transitions 81 ∧ ATrans.prec q b ∈ parserAtn.transitions a ∧
    (∀ p w, Der c w → Derives parserAtn p b (kindToken k :: w)) ∧ ATrans.rule 2 d (q + 1) ∈ parserAtn.transitions c ∧
    (∀ p w, Derives parserAtn p 83 w → Derives parserAtn p d w) := by
  have hc : ∀ p w (k : TK), (ATrans.set [(27, 32)] 87).target (kindToken k) = some 87 → Der 57 w →
      Derives parserAtn p 56 (kindToken k :: w) := by
    intro p w k hk h
    refine der_call_ne (x := [kindToken k]) 4 57 0 (by decide +kernel) nofun ?_ h
    ε 86
    refine der_read 87 (.set [(27, 32)] 87) (by decide +kernel) hk ?_
    ε 5; exact der_stop (by decide +kernel)
  have hb : ∀ p w (k : TK), (ATrans.set [(4, 5)] 143).target (kindToken k) = some 143 → Der 79 w →
      Derives parserAtn p 78 (kindToken k :: w) := by
    intro p w k hk h
    refine der_call_ne (x := [kindToken k]) 18 79 0 (by decide +kernel) nofun ?_ h
    ε 142
    refine der_read 143 (.set [(4, 5)] 143) (by decide +kernel) hk ?_
    ε 19; exact der_stop (by decide +kernel)
  have h58 : ∀ p w, Derives parserAtn p 83 w → Derives parserAtn p 58 w := by
    intro p w h; ε 82; exact loop_back h
  have h80 : ∀ p w, Derives parserAtn p 83 w → Derives parserAtn p 80 w := by
    intro p w h; ε 82; exact loop_back h
  have h82 : ∀ p w, Derives parserAtn p 83 w → Derives parserAtn p 82 w := fun p w h => loop_back h
  simp only [operRows, List.mem_cons, List.not_mem_nil, or_false, Prod.mk.injEq] at h
  rcases h with ⟨rfl, rfl, rfl, rfl, rfl, rfl, rfl⟩ | ⟨rfl, rfl, rfl, rfl, rfl, rfl, rfl⟩ | ⟨rfl, rfl, rfl, rfl, rfl, rfl, rfl⟩ |
    ⟨rfl, rfl, rfl, rfl, rfl, rfl, rfl⟩ | ⟨rfl, rfl, rfl, rfl, rfl, rfl, rfl⟩ | ⟨rfl, rfl, rfl, rfl, rfl, rfl, rfl⟩ |
    ⟨rfl, rfl, rfl, rfl, rfl, rfl, rfl⟩ | ⟨rfl, rfl, rfl, rfl, rfl, rfl, rfl⟩ | ⟨rfl, rfl, rfl, rfl, rfl, rfl, rfl⟩ |
    ⟨rfl, rfl, rfl, rfl, rfl, rfl, rfl⟩ | ⟨rfl, rfl, rfl, rfl, rfl, rfl, rfl⟩ | ⟨rfl, rfl, rfl, rfl, rfl, rfl, rfl⟩ |
    ⟨rfl, rfl, rfl, rfl, rfl, rfl, rfl⟩ | ⟨rfl, rfl, rfl, rfl, rfl, rfl, rfl⟩ <;>
  refine ⟨by decide +kernel, by decide +kernel, by decide +kernel, ?_, by decide +kernel, ?_⟩ <;>
  first
    | assumption
    | exact fun p w h => hc p w _ (by decide +kernel) h
    | exact fun p w h => hb p w _ (by decide +kernel) h
    | exact fun p w h => der_read 61 (.atom 26 61) (by decide +kernel) (by decide +kernel) h
    | exact fun p w h => der_read 64 (.atom 24 64) (by decide +kernel) (by decide +kernel) h
    | exact fun p w h => der_read 67 (.atom 23 67) (by decide +kernel) (by decide +kernel) h
    | exact fun p w h => der_read 70 (.atom 25 70) (by decide +kernel) (by decide +kernel) h
    | exact fun p w h => der_read 73 (.atom 21 73) (by decide +kernel) (by decide +kernel) h
    | exact fun p w h => der_read 76 (.atom 22 76) (by decide +kernel) (by decide +kernel) h

theorem between_row {k : TK} (h : k ∈ betweenKinds) : ∃ i a q b c d, (k, i, a, q, b, c, d) ∈ operRows := by
  simp only [betweenKinds, List.mem_cons, List.not_mem_nil, or_false] at h
  rcases h with rfl | rfl | rfl | rfl | rfl | rfl | rfl | rfl | rfl | rfl | rfl | rfl | rfl | rfl <;>
    exact ⟨_, _, _, _, _, _, by simp [operRows]; exact ⟨rfl, rfl, rfl, rfl, rfl, rfl⟩⟩

/-- A step of the operator loop. -/
theorem oper_step {k : TK} {i a q b c d : Nat} (h : (k, i, a, q, b, c, d) ∈ operRows)
    (hp : ∀ n, p = some n → n ≤ q) (hx : Der 2 x) (hy : Der 83 y) :
    Derives parserAtn p a (kindToken k :: (x ++ y)) := by
  obtain ⟨-, -, h3, h4, h5, h6⟩ := oper_row h
  have h7 : Der c (x ++ y) := der_call 2 d _ h5 hx (h6 _ _ hy)
  exact .prec h3 hp (h4 _ _ h7)

/-- The same from the loop. -/
theorem oper_loop {k : TK} {i a q b c d : Nat} (h : (k, i, a, q, b, c, d) ∈ operRows)
    (hp : ∀ n, p = some n → n ≤ q) (hx : Der 2 x) (hy : Der 83 y) :
    Derives parserAtn p 83 (kindToken k :: (x ++ y)) := by
  ε 81
  exact .eps (oper_row h).2.1 (oper_step h hp hx hy)

/-- A name of a type, a literal. -/
theorem types_tok {k : TK} (h : k ∈ typesKinds) : Der 16 [kindToken k] := by
  have hb : ∀ n, (ATrans.set [(7, 8)] 145).target n = some 145 → Der 134 [n] := by
    intro n hn
    refine der_call (x := [n]) (y := []) 20 141 0 (by decide +kernel) ?_ ?_
    · ε 144
      refine der_read 145 (.set [(7, 8)] 145) (by decide +kernel) hn ?_
      ε 21; exact der_stop (by decide +kernel)
    · ε 17; exact der_stop (by decide +kernel)
  have he : Der 141 [] := by ε 17; exact der_stop (by decide +kernel)
  simp only [typesKinds, List.mem_cons, List.not_mem_nil, or_false] at h
  ε 140
  rcases h with rfl | rfl | rfl | rfl | rfl | rfl | rfl | rfl | rfl
  · ε 131; δ 141 ⟪.atom 37 141⟫; exact he
  · ε 132; δ 141 ⟪.atom 35 141⟫; exact he
  · ε 133; δ 141 ⟪.atom 36 141⟫; exact he
  · ε 134; exact hb _ (by decide +kernel)
  · ε 134; exact hb _ (by decide +kernel)
  · ε 135; δ 141 ⟪.atom 41 141⟫; exact he
  · ε 136; δ 141 ⟪.atom 44 141⟫; exact he
  · ε 137; δ 141 ⟪.atom 38 141⟫; exact he
  · ε 138; δ 141 ⟪.atom 39 141⟫; exact he

theorem types_none : Der 16 [] := by
  ε 140; ε 139; ε 141; ε 17; exact der_stop (by decide +kernel)

theorem num_tok {k : TK} (h : k ∈ numericKinds) : Der 14 [kindToken k] := by
  ε 129
  refine der_read 130 (.set [(35, 35), (37, 37)] 130) (by decide +kernel) ?_ ?_
  · simp only [numericKinds, List.mem_cons, List.not_mem_nil, or_false] at h
    rcases h with rfl | rfl <;> decide +kernel
  · ε 15; exact der_stop (by decide +kernel)

theorem arr_tok {k : TK} (h : k ∈ arrayKinds) : Der 12 [kindToken k] := by
  ε 127
  refine der_read 128 (.set [(9, 10)] 128) (by decide +kernel) ?_ ?_
  · simp only [arrayKinds, List.mem_cons, List.not_mem_nil, or_false] at h
    rcases h with rfl | rfl <;> decide +kernel
  · ε 13; exact der_stop (by decide +kernel)

theorem fn_tok (f : FuncType) : Der 8 [kindToken (.fn f)] := by
  ε 90
  refine der_read 91 (.set [(11, 20)] 91) (by decide +kernel) ?_ ?_
  · cases f <;> decide +kernel
  · ε 9; exact der_stop (by decide +kernel)

/-- The end of a list. -/
theorem items_end : Der 122 [kindToken .rparen] := by
  ε 123; ε 125; δ 126 ⟪.atom 34 126⟫; ε 11; exact der_stop (by decide +kernel)

/-- Another item. -/
theorem items_more (hx : Der 2 x) (hy : Der 117 y) : Der 122 (kindToken .comma :: (x ++ y)) := by
  ε 120; ε 106; δ 110 ⟪.atom 1 110⟫; ε 111; ε 113
  exact der_call 2 117 0 (by decide +kernel) hx hy

theorem after_first (h : Der 122 y) : Der 103 y := by ε 104; ε 122; exact h
theorem after_item (h : Der 122 y) : Der 117 y := by ε 118; ε 121; ε 124; ε 122; exact h

theorem items_derive (es : List (List TK)) (h : ∀ x ∈ es, Der 2 (codes x)) :
    Der 122 (codes (es.flatMap (fun x => .comma :: x) ++ [.rparen])) := by
  induction es with
  | nil => exact items_end
  | cons e es ih =>
    have := items_more (h e (by simp)) (after_item (ih fun x hx => h x (by simp [hx])))
    simpa [codes] using this

theorem list_start (hx : Der 2 x) (hy : Der 122 y) : Der 10 (kindToken .lparen :: (x ++ y)) := by
  ε 92; δ 96 ⟪.atom 33 96⟫; ε 97; ε 99
  exact der_call 2 103 0 (by decide +kernel) hx (after_first hy)

theorem wordlist_derive {e : List TK} {es : List (List TK)} (he : Der 2 (codes e)) (h : ∀ x ∈ es, Der 2 (codes x)) :
    Der 10 (codes (wordlist e es)) := by
  have := list_start he (items_derive es h)
  simpa [codes, wordlist] using this

/-! The alternatives of `expression`, each from the state its alternative leads to. -/

theorem alt_paren (hx : Der 2 x) (hy : Der 83 y) :
    Derives parserAtn p 25 (kindToken .lparen :: (x ++ kindToken .rparen :: y)) := by
  refine .action (i := 0) (t := 26) (by decide +kernel) ?_
  δ 27 ⟪.atom 33 27⟫
  refine der_call 2 28 0 (by decide +kernel) hx ?_
  δ 29 ⟪.atom 34 29⟫
  ε 54; exact after_loop hy

theorem alt_not (hx : Der 2 x) (hy : Der 83 y) : Derives parserAtn p 30 (kindToken .kNot :: (x ++ y)) := by
  δ 31 ⟪.atom 6 31⟫
  exact der_call 2 54 15 (by decide +kernel) hx (after_loop hy)

theorem alt_neg (hx : Der 2 x) (hy : Der 83 y) : Derives parserAtn p 32 (kindToken (.arith .sub) :: (x ++ y)) := by
  δ 33 ⟪.atom 22 33⟫
  exact der_call 2 54 13 (by decide +kernel) hx (after_loop hy)

theorem alt_func (f : FuncType) (hx : Der 10 x) (hy : Der 83 y) :
    Derives parserAtn p 34 (kindToken (.fn f) :: (x ++ y)) := by
  refine der_call_ne (x := [kindToken (.fn f)]) 8 35 0 (by decide +kernel) nofun (fn_tok f) ?_
  refine der_call 10 36 0 (by decide +kernel) hx ?_
  ε 54; exact after_loop hy

theorem alt_types {k : TK} (hk : k ∈ typesKinds) (hy : Der 83 y) : Derives parserAtn p 37 (kindToken k :: y) :=
  der_call_ne (x := [kindToken k]) 16 54 0 (by decide +kernel) nofun (types_tok hk) (after_loop hy)

theorem alt_empty (hy : Derives parserAtn p 83 y) : Derives parserAtn p 37 y := by
  have : Derives parserAtn p 37 ([] ++ y) := .call (st := 16) (fo := 54) (q := 0) (by decide +kernel) types_none
    (by rw [if_pos rfl]; exact after_loop hy)
  exact this

theorem alt_to {lo hi : TK} (hl : lo ∈ numericKinds) (hh : hi ∈ numericKinds) (hy : Der 83 y) :
    Derives parserAtn p 38 (kindToken .field :: kindToken lo :: kindToken .kTo :: kindToken hi :: y) := by
  δ 39 ⟪.atom 44 39⟫
  refine der_call (x := [kindToken lo]) 14 40 0 (by decide +kernel) (num_tok hl) ?_
  δ 41 ⟪.atom 3 41⟫
  refine der_call (x := [kindToken hi]) 14 42 0 (by decide +kernel) (num_tok hh) ?_
  ε 54; exact after_loop hy

theorem alt_in (hx : Der 10 x) (hy : Der 83 y) :
    Derives parserAtn p 43 (kindToken .field :: kindToken .kIn :: (x ++ y)) := by
  δ 45 ⟪.atom 44 45⟫
  ε 46; ε 47; δ 48 ⟪.atom 2 48⟫
  exact der_call 10 54 0 (by decide +kernel) hx (after_loop hy)

theorem alt_notIn (hx : Der 10 x) (hy : Der 83 y) :
    Derives parserAtn p 43 (kindToken .field :: kindToken .kNot :: kindToken .kIn :: (x ++ y)) := by
  δ 45 ⟪.atom 44 45⟫
  ε 44; δ 46 ⟪.atom 6 46⟫; ε 47; δ 48 ⟪.atom 2 48⟫
  exact der_call 10 54 0 (by decide +kernel) hx (after_loop hy)

theorem alt_array {o : TK} (ho : o ∈ arrayKinds) (hx : Der 10 x) (hy : Der 83 y) :
    Derives parserAtn p 49 (kindToken .field :: kindToken o :: (x ++ y)) := by
  δ 50 ⟪.atom 44 50⟫
  refine der_call (x := [kindToken o]) 12 51 0 (by decide +kernel) (arr_tok ho) ?_
  refine der_call 10 52 0 (by decide +kernel) hx ?_
  ε 54; exact after_loop hy

/-- Every expression of the grammar is one of the automaton, with any continuation of the operator loop. -/
theorem expression_derives {e : List TK} (h : Expression e) : ∀ y, Der 83 y → Der 2 (codes e ++ y) := by
  have nil : ∀ {x : List TK}, (∀ y, Der 83 y → Der 2 (codes x ++ y)) → Der 2 (codes x) := by
    intro x hx
    simpa using hx [] loop_exit
  induction h with
  | paren _ ih =>
    intro y hy
    have := alt_paren (p := none) (nil ih) hy
    ε 53; ε 25
    simpa [codes] using this
  | not_ _ ih =>
    intro y hy
    ε 53; ε 30
    exact alt_not (p := none) (nil ih) hy |> fun h => by simpa [codes] using h
  | minus _ ih =>
    intro y hy
    ε 53; ε 32
    have := alt_neg (p := none) (nil ih) hy
    simpa [codes] using this
  | between ho _ _ ihl ihr =>
    intro y hy
    obtain ⟨i, a, q, b, c, d, hrow⟩ := between_row ho
    have := ihl _ (oper_loop hrow nofun (nil ihr) hy)
    simpa [codes] using this
  | @func f _ _ _ _ ih ihs =>
    intro y hy
    ε 53; ε 34
    have := alt_func (p := none) f (wordlist_derive (nil ih) (fun x hx => nil (ihs x hx))) hy
    simpa [codes] using this
  | types hk =>
    intro y hy
    ε 53; ε 37
    exact alt_types hk hy
  | omitted =>
    intro y hy
    ε 53; ε 37
    exact alt_empty hy
  | to_ hl hh =>
    intro y hy
    ε 53; ε 38
    exact alt_to hl hh hy
  | in_ _ _ ih ihs =>
    intro y hy
    ε 53; ε 43
    have := alt_in (p := none) (wordlist_derive (nil ih) (fun x hx => nil (ihs x hx))) hy
    simpa [codes] using this
  | notIn _ _ ih ihs =>
    intro y hy
    ε 53; ε 43
    have := alt_notIn (p := none) (wordlist_derive (nil ih) (fun x hx => nil (ihs x hx))) hy
    simpa [codes] using this
  | array ho _ _ ih ihs =>
    intro y hy
    ε 53; ε 49
    have := alt_array (p := none) ho (wordlist_derive (nil ih) (fun x hx => nil (ihs x hx))) hy
    simpa [codes] using this

theorem expression_der {e : List TK} (h : Expression e) : Der 2 (codes e) := by
  simpa using expression_derives h [] loop_exit

/-- The language of the rule `parse`. -/
theorem parse_language (ks : List TK) : Der 0 (codes ks ++ [0]) ↔ Expression ks := by
  constructor
  · intro h
    obtain ⟨e, he, h⟩ := derives_lang h (ks ++ [.eof]) (by simp [codes, kindToken])
    rw [← List.append_cancel_right h] at he
    exact he
  · intro h
    ε 22
    refine der_call 2 23 0 (by decide +kernel) (expression_der h) ?_
    δ 24 ⟪.atom 0 24⟫
    ε 1; exact der_stop (by decide +kernel)

end BoolParser
