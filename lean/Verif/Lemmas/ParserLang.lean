import Verif.Lemmas.ParserTables
import Verif.Spec.Grammar
/-!
# The language of the parser's automaton is the published grammar: soundness
-/

namespace BoolParser

/-- `(',' expression)* ')'`. -/
def ItemsEnd (w : List TK) : Prop := ∃ es : List (List TK), (∀ x ∈ es, Expression x) ∧ w = es.flatMap (fun x => .comma :: x) ++ [.rparen]

/-- What the token kinds from a state to the end of its rule look like. -/
inductive Cls where
  | none_ | parse | eof | nil | expr | loop | rhs | paren1 | paren2 | not1 | neg1 | func1 | field1 | lo1 | to1 | inn | in1
  | arr1 | oper | fnName | words | first | items | arrOp | num | types | boolK
deriving DecidableEq

def Cls.Sem : Cls → List TK → Prop
  | .none_, _ => True
  | .parse, w => ∃ e, Expression e ∧ w = e ++ [.eof]
  | .eof, w => w = [.eof]
  | .nil, w => w = []
  | .expr, w => Expression w
  | .loop, w => ∀ l, Expression l → Expression (l ++ w)
  | .rhs, w => ∀ l o, o ∈ betweenKinds → Expression l → Expression (l ++ o :: w)
  | .paren1, w => Expression (.lparen :: w)
  | .paren2, w => ∀ e, Expression e → Expression (.lparen :: (e ++ w))
  | .not1, w => Expression (.kNot :: w)
  | .neg1, w => Expression (.arith .sub :: w)
  | .func1, w => ∀ f, Expression (.fn f :: w)
  | .field1, w => Expression (.field :: w)
  | .lo1, w => ∀ k ∈ numericKinds, Expression (.field :: k :: w)
  | .to1, w => ∀ k ∈ numericKinds, Expression (.field :: k :: .kTo :: w)
  | .inn, w => Expression (.field :: w) ∧ Expression (.field :: .kNot :: w)
  | .in1, w => Expression (.field :: .kIn :: w) ∧ Expression (.field :: .kNot :: .kIn :: w)
  | .arr1, w => ∀ o ∈ arrayKinds, Expression (.field :: o :: w)
  | .oper, w => ∃ o ∈ betweenKinds, w = [o]
  | .fnName, w => ∃ f, w = [.fn f]
  | .words, w => ∃ e es, Expression e ∧ (∀ x ∈ es, Expression x) ∧ w = wordlist e es
  | .first, w => ∃ e r, Expression e ∧ ItemsEnd r ∧ w = e ++ r
  | .items, w => ItemsEnd w
  | .arrOp, w => ∃ o ∈ arrayKinds, w = [o]
  | .num, w => ∃ k ∈ numericKinds, w = [k]
  | .types, w => w = [] ∨ ∃ k ∈ typesKinds, w = [k]
  | .boolK, w => w = [.kTrue] ∨ w = [.kFalse]

/-- States (a range of numbers) and their class. -/
def clsOf (s : Nat) : Cls :=
  if s ∈ [0, 22] then .parse else if s = 23 then .eof
  else if s ∈ [1, 5, 7, 9, 11, 13, 15, 17, 19, 21, 24, 87, 89, 91, 126, 128, 130, 141, 143, 145] then .nil
  else if s ∈ [2, 53, 25, 26, 30, 32, 34, 37, 38, 43, 49] then .expr
  else if s = 27 then .paren1 else if s = 28 then .paren2 else if s = 31 then .not1 else if s = 33 then .neg1
  else if s = 35 then .func1 else if s ∈ [39, 44, 45, 50] then .field1 else if s = 40 then .lo1 else if s = 41 then .to1
  else if s ∈ [46, 47] then .inn else if s = 48 then .in1 else if s = 51 then .arr1
  else if s ∈ [57, 61, 64, 67, 70, 73, 76, 79] then .rhs
  else if s ∈ [3, 29, 36, 42, 52, 54] ∨ (55 ≤ s ∧ s ≤ 85) then .loop
  else if s ∈ [4, 86, 6, 88, 18, 142] then .oper
  else if s ∈ [8, 90] then .fnName
  else if s ∈ [10, 92] then .words
  else if s ∈ [12, 127] then .arrOp else if s ∈ [14, 129] then .num
  else if s ∈ [16, 140] ∨ (131 ≤ s ∧ s ≤ 139) then .types
  else if s ∈ [20, 144] then .boolK
  else if (93 ≤ s ∧ s ≤ 99) ∨ (107 ≤ s ∧ s ≤ 113) then .first
  else if (100 ≤ s ∧ s ≤ 106) ∨ (114 ≤ s ∧ s ≤ 125) then .items
  else .none_

abbrev Lang (s : Nat) (w : List TK) : Prop := (clsOf s).Sem w

/-- Reading a token. -/
def ReadOk (c d : Cls) (n : Nat) : Prop := ∀ k w, kindToken k = n → d.Sem w → c.Sem (k :: w)

/-- A transition respects the classes. -/
def EdgeOk : Nat × ATrans → Prop
  | (s, .eps t) => ∀ w, Lang t w → Lang s w
  | (s, .action _ t) => ∀ w, Lang t w → Lang s w
  | (s, .prec _ t) => ∀ w, Lang t w → Lang s w
  | (s, .rule st fo _) => ∀ x y, Lang st x → Lang fo y → Lang s (x ++ y)
  | (s, tr) => ∀ k t w, tr.target (kindToken k) = some t → Lang t w → Lang s (k :: w)

/-- Which classes may follow each other without reading. -/
def epsCheck (c d : Cls) : Bool :=
  c == d || (c == .types && d == .nil) || (c == .field1 && d == .inn) || (c == .loop && d == .nil)

theorem eps_ok {c d : Cls} (h : epsCheck c d = true) {w : List TK} (hw : d.Sem w) : c.Sem w := by
  simp only [epsCheck, Bool.or_eq_true, Bool.and_eq_true, beq_iff_eq] at h
  rcases h with ((rfl | ⟨rfl, rfl⟩) | ⟨rfl, rfl⟩) | ⟨rfl, rfl⟩
  · exact hw
  · exact .inl hw
  · exact hw.1
  · intro l hl
    rw [show w = [] from hw, List.append_nil]; exact hl

/-- Calls: the class of the calling state, of the rule, of the state to return to. -/
def callCheck (c d e : Cls) : Bool :=
  (c, d, e) ∈ [(Cls.parse, Cls.expr, Cls.eof), (.paren1, .expr, .paren2), (.not1, .expr, .loop), (.neg1, .expr, .loop),
    (.expr, .fnName, .func1), (.func1, .words, .loop), (.expr, .types, .loop), (.field1, .num, .lo1), (.to1, .num, .loop),
    (.in1, .words, .loop), (.field1, .arrOp, .arr1), (.arr1, .words, .loop), (.loop, .oper, .rhs), (.rhs, .expr, .loop),
    (.first, .expr, .items), (.types, .boolK, .nil)]

theorem call_ok {c d e : Cls} (h : callCheck c d e = true) {x y : List TK} (hx : d.Sem x) (hy : e.Sem y) :
    c.Sem (x ++ y) := by
  simp only [callCheck, List.mem_cons, List.not_mem_nil, or_false, decide_eq_true_eq, Prod.mk.injEq] at h
  rcases h with ⟨rfl, rfl, rfl⟩ | ⟨rfl, rfl, rfl⟩ | ⟨rfl, rfl, rfl⟩ | ⟨rfl, rfl, rfl⟩ | ⟨rfl, rfl, rfl⟩ | ⟨rfl, rfl, rfl⟩ |
    ⟨rfl, rfl, rfl⟩ | ⟨rfl, rfl, rfl⟩ | ⟨rfl, rfl, rfl⟩ | ⟨rfl, rfl, rfl⟩ | ⟨rfl, rfl, rfl⟩ | ⟨rfl, rfl, rfl⟩ |
    ⟨rfl, rfl, rfl⟩ | ⟨rfl, rfl, rfl⟩ | ⟨rfl, rfl, rfl⟩ | ⟨rfl, rfl, rfl⟩
  · exact ⟨x, hx, by rw [show y = _ from hy]⟩
  · exact hy x hx
  · exact hy _ (.not_ hx)
  · exact hy _ (.minus hx)
  · obtain ⟨f, rfl⟩ := hx; exact hy f
  · obtain ⟨e, es, he, hes, rfl⟩ := hx
    exact fun f => hy _ (.func he hes)
  · rcases hx with rfl | ⟨k, hk, rfl⟩
    · exact hy [] .omitted
    · exact hy [k] (.types hk)
  · obtain ⟨k, hk, rfl⟩ := hx; exact hy k hk
  · obtain ⟨k, hk, rfl⟩ := hx
    exact fun lo hlo => hy _ (.to_ hlo hk)
  · obtain ⟨e, es, he, hes, rfl⟩ := hx
    exact ⟨hy _ (.in_ he hes), hy _ (.notIn he hes)⟩
  · obtain ⟨o, ho, rfl⟩ := hx; exact hy o ho
  · obtain ⟨e, es, he, hes, rfl⟩ := hx
    exact fun o ho => hy _ (.array ho he hes)
  · obtain ⟨o, ho, rfl⟩ := hx
    exact fun l hl => hy l o ho hl
  · intro l o ho hl
    have := hy _ (.between ho hl hx)
    rwa [List.append_assoc, List.cons_append] at this
  · exact ⟨x, y, hx, hy, rfl⟩
  · rw [show y = [] from hy, List.append_nil]
    rcases hx with rfl | rfl
    · exact .inr ⟨_, by simp [typesKinds], rfl⟩
    · exact .inr ⟨_, by simp [typesKinds], rfl⟩

/-- Reading: the class before, the token's kind, the class after. -/
def readCheck (c : Cls) (k : TK) (d : Cls) : Bool :=
  match c, d with
  | .eof, .nil => k == .eof
  | .expr, .paren1 => k == .lparen
  | .paren2, .loop => k == .rparen
  | .expr, .not1 => k == .kNot
  | .expr, .neg1 => k == .arith .sub
  | .expr, .field1 => k == .field
  | .lo1, .to1 => k == .kTo
  | .field1, .inn => k == .kNot
  | .inn, .in1 => k == .kIn
  | .loop, .rhs => k ∈ betweenKinds
  | .oper, .nil => k ∈ betweenKinds
  | .fnName, .nil => match k with | .fn _ => true | _ => false
  | .words, .first => k == .lparen
  | .items, .first => k == .comma
  | .items, .nil => k == .rparen
  | .arrOp, .nil => k ∈ arrayKinds
  | .num, .nil => k ∈ numericKinds
  | .types, .nil => k ∈ typesKinds
  | .boolK, .nil => k == .kTrue || k == .kFalse
  | _, _ => false

theorem read_ok {c d : Cls} {k : TK} (h : readCheck c k d = true) {w : List TK} (hw : d.Sem w) : c.Sem (k :: w) := by
  unfold readCheck at h
  split at h
  · rw [eq_of_beq h, show w = [] from hw]; rfl
  · rw [eq_of_beq h]; exact hw
  · rw [eq_of_beq h]
    intro e he
    have := hw _ (.paren he)
    simpa using this
  · rw [eq_of_beq h]; exact hw
  · rw [eq_of_beq h]; exact hw
  · rw [eq_of_beq h]; exact hw
  · rw [eq_of_beq h]; exact hw
  · rw [eq_of_beq h]; exact hw.2
  · rw [eq_of_beq h]; exact hw
  · exact fun l hl => hw l k (of_decide_eq_true h) hl
  · rw [show w = [] from hw]; exact ⟨k, of_decide_eq_true h, rfl⟩
  · rw [show w = [] from hw]
    split at h
    · exact ⟨_, rfl⟩
    · cases h
  · rw [eq_of_beq h]
    obtain ⟨e, r, he, ⟨es, hes, rfl⟩, rfl⟩ := hw
    exact ⟨e, es, he, hes, rfl⟩
  · rw [eq_of_beq h]
    obtain ⟨e, r, he, ⟨es, hes, rfl⟩, rfl⟩ := hw
    refine ⟨e :: es, ?_, by simp⟩
    intro x hx
    rcases List.mem_cons.1 hx with rfl | hx
    · exact he
    · exact hes x hx
  · rw [eq_of_beq h, show w = [] from hw]
    exact ⟨[], nofun, rfl⟩
  · rw [show w = [] from hw]; exact ⟨k, of_decide_eq_true h, rfl⟩
  · rw [show w = [] from hw]; exact ⟨k, of_decide_eq_true h, rfl⟩
  · rw [show w = [] from hw]; exact .inr ⟨k, of_decide_eq_true h, rfl⟩
  · rw [show w = [] from hw]
    rcases Bool.or_eq_true _ _ |>.mp h with h | h
    · rw [eq_of_beq h]; exact .inl rfl
    · rw [eq_of_beq h]; exact .inr rfl
  · cases h

/-- All kinds. -/
def allKinds : List TK :=
  [.comma, .kIn, .kTo, .kAnd, .kOr, .kNot, .kTrue, .kFalse, .cAll, .cAny,
   .fn .min, .fn .max, .fn .avg, .fn .sum, .fn .mean, .fn .mode, .fn .median, .fn .len, .fn .int, .fn .daysElapsed,
   .arith .add, .arith .sub, .arith .mul, .arith .div, .arith .mod, .arith .exp,
   .cmp .ne, .cmp .gt, .cmp .ge, .cmp .lt, .cmp .le, .cmp .eq, .lparen, .rparen, .decimal, .version, .integer, .date,
   .datetime, .word, .field, .eof]

theorem mem_allKinds (k : TK) : k ∈ allKinds := by
  cases k with
  | fn f => cases f <;> decide
  | arith o => cases o <;> decide
  | cmp o => cases o <;> decide
  | _ => decide

/-- A transition respects the classes, checked. -/
def edgeCheck : Nat × ATrans → Bool
  | (s, .eps t) => epsCheck (clsOf s) (clsOf t)
  | (s, .action _ t) => epsCheck (clsOf s) (clsOf t)
  | (s, .prec _ t) => epsCheck (clsOf s) (clsOf t)
  | (s, .rule st fo _) => callCheck (clsOf s) (clsOf st) (clsOf fo)
  | (s, tr) => allKinds.all fun k =>
    match tr.target (kindToken k) with
    | some t => readCheck (clsOf s) k (clsOf t)
    | none => true

theorem edges_checked : parserEdges.all edgeCheck = true := by krfl

theorem edge_of_transition {a : ATN} {s : Nat} {tr : ATrans} (h : tr ∈ a.transitions s) : (s, tr) ∈ a.edges := by
  unfold ATN.transitions at h
  rw [List.mem_map] at h
  obtain ⟨⟨s', tr'⟩, hm, rfl⟩ := h
  rw [List.mem_filter] at hm
  rw [← eq_of_beq hm.2]
  exact hm.1

theorem edge_checked {s : Nat} {tr : ATrans} (h : tr ∈ parserAtn.transitions s) : edgeCheck (s, tr) = true :=
  List.all_eq_true.1 edges_checked _ (edge_of_transition h)

/-- The stop states. -/
def stopStates : List Nat := [1, 3, 5, 7, 9, 11, 13, 15, 17, 19, 21]

theorem stop_mem {s : Nat} (h : parserAtn.isStop s = true) : s ∈ stopStates := by
  have key : ∀ n < 147, parserAtn.isStop n = true → n ∈ stopStates := by decide +kernel
  by_cases hs : s < 147
  · exact key s hs h
  · unfold ATN.isStop at h
    have : parserAtn.states[s]? = none := List.getElem?_eq_none (by
      have : parserAtn.states.length = 147 := by krfl
      omega)
    rw [this] at h; cases h

theorem read_edge {s k t : Nat} {tr : ATrans} (h : (s, tr) ∈ parserEdges) (ht : tr.target k = some t) :
    edgeCheck (s, tr) = allKinds.all fun k =>
      match tr.target (kindToken k) with
      | some t => readCheck (clsOf s) k (clsOf t)
      | none => true := by
  cases tr <;> first | rfl | cases ht

theorem derives_lang {p : Option Nat} {s : Nat} {w : List Nat} (h : Derives parserAtn p s w) :
    ∀ ks : List TK, w = ks.map kindToken → Lang s ks := by
  induction h with
  | stop hs =>
    rintro ks hk
    have : ks = [] := by cases ks with | nil => rfl | cons _ _ => cases hk
    subst this
    have key : ∀ n ∈ stopStates, clsOf n = .nil ∨ clsOf n = .loop := by decide +kernel
    rcases key _ (stop_mem hs) with e | e
    · rw [Lang, e]; rfl
    · rw [Lang, e]; intro l hl; rw [List.append_nil]; exact hl
  | eps he _ ih => exact fun ks hk => eps_ok (edge_checked he) (ih ks hk)
  | action he _ ih => exact fun ks hk => eps_ok (edge_checked he) (ih ks hk)
  | prec he _ _ ih => exact fun ks hk => eps_ok (edge_checked he) (ih ks hk)
  | @read p s tr k t w he ht _ ih =>
    intro ks hk
    cases ks with
    | nil => cases hk
    | cons x xs =>
      simp only [List.map_cons, List.cons.injEq] at hk
      obtain ⟨rfl, hk⟩ := hk
      have h1 := edge_checked he
      rw [read_edge (edge_of_transition he) ht] at h1
      have h2 := List.all_eq_true.1 h1 x (mem_allKinds x)
      rw [ht] at h2
      exact read_ok h2 (ih xs hk)
  | call he _ _ ih1 ih2 =>
    intro ks hk
    obtain ⟨u, v, rfl, hu, hv⟩ := List.map_eq_append_iff.1 hk.symm
    exact call_ok (edge_checked he) (ih1 u hu.symm) (ih2 v hv.symm)

end BoolParser
