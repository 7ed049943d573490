import Verif.Lemmas.ExactCond
import Verif.Lemmas.Sim
import Verif.Lemmas.Texts
/-!
# Other spellings

A text is read as the node of an expression only if the text in standard spelling is.
-/

namespace BoolParser
open Spec

/-- The token is some spelling of the other one. -/
def Spells (t t' : Token) : Prop := (Classified t.text t.kind ∨ t = eofTok) ∧ canon t = t'

/-- Everything is the same, except for operators that stand for a missing operand. -/
def spellVocab : Vocab where
  field := Eq
  lit := fun _ => Eq
  bound := Eq
  word := fun _ v v' => v = v' ∨ ∀ f, v = .str f → ¬ IsName f
  lone := fun _ _ => True
  fn := fun _ => True
  op := fun _ => True

theorem rrel_refl {α : Type} {Q : α → α → Prop} (hq : ∀ a, Q a a) (x : Result α) : RRel Q x x := by
  cases x with
  | error e => exact .error e
  | ok a => exact .ok (hq a)

/-- The text is converted to itself. -/
def plainText (x : JStr) : Bool :=
  match convertValue x .string with
  | .ok (.str y) => x == y
  | _ => false

theorem plainText_conv {x : JStr} (h : plainText x = true) : convertValue x .string = .ok (.str x) := by
  unfold plainText at h
  split at h
  · rename_i y e
    rw [e, eq_of_beq h]
  · cases h

theorem table_plain : ∀ p ∈ tokenTable, plainText p.1 = true ∧ plainText (canonText ⟨p.2, p.1⟩) = true := by
  decide +kernel

theorem table_name : ∀ p ∈ tokenTable, isEmptyFollow p.2 = true → ¬ IsName p.1 := by decide +kernel

theorem table_word : ∀ p ∈ tokenTable, isEmptyFollow p.2 = true → tokType ⟨p.2, p.1⟩ = .string := by
  decide +kernel

theorem spells_cases {t t' : Token} (h : Spells t t') : t = t' ∨ ((t.text, t.kind) ∈ tokenTable ∧ t' = canon t) := by
  obtain ⟨h | rfl, rfl⟩ := h
  · obtain ⟨k, x⟩ := t
    simp only at h
    cases h with
    | table h => exact .inr ⟨h, rfl⟩
    | integer _ => exact .inl rfl
    | decimal _ => exact .inl rfl
    | version _ => exact .inl rfl
    | date _ => exact .inl rfl
    | datetime _ => exact .inl rfl
    | quoted _ => exact .inl rfl
    | name _ _ _ _ _ _ => exact .inl rfl
  · exact .inl rfl

theorem spells_sim (df : Option JStr) : Sim Spells spellVocab df df where
  kind := by rintro t t' ⟨_, rfl⟩; rfl
  type := by rintro t t' ⟨_, rfl⟩; exact (canon_tokType t).symm
  field := by rintro t t' ⟨_, rfl⟩ hk; rw [canon_field hk]; rfl
  lit := by
    rintro t t' ⟨_, rfl⟩ hk
    have := canon_convert (t := t) (.inl hk)
    rw [canon_tokType] at this
    rw [this]; exact rrel_refl (fun _ => rfl) _
  bound := fun h => h
  lone := by
    intro t t' h _ _
    rcases spells_cases h with rfl | ⟨hT, rfl⟩
    · exact rrel_refl (fun _ => trivial) _
    · obtain ⟨h1, h2⟩ := table_plain _ hT
      have e2 : convertValue (canon t).text .string = .ok (.str (canonText t)) := plainText_conv h2
      rw [plainText_conv h1, e2]
      exact .ok trivial
  word := by
    intro t t' h ho
    rcases ho with hk | hk | hk
    · rw [show t' = t by rw [← h.2]; exact canon_field hk]
      exact rrel_refl (fun _ => .inl rfl) _
    · have := canon_convert (t := t) (.inl hk)
      rw [canon_tokType, h.2] at this
      rw [this]; exact rrel_refl (fun _ => .inl rfl) _
    · rcases spells_cases h with rfl | ⟨hT, rfl⟩
      · exact rrel_refl (fun _ => .inl rfl) _
      · obtain ⟨h1, h2⟩ := table_plain _ hT
        have h3 := table_word _ hT hk
        have e2 : convertValue (canon t).text .string = .ok (.str (canonText t)) := plainText_conv h2
        have h3' : tokType t = .string := h3
        rw [h3', plainText_conv h1, e2]
        refine .ok (.inr ?_)
        intro f hf
        injection hf with hf
        rw [← hf]; exact table_name _ hT hk
  fn := fun _ _ => trivial
  op := fun _ _ => trivial
  dflt := by
    cases df with
    | none => exact .none
    | some f => exact .some rfl

mutual
theorem arith_spell : (e : Arith) → ∀ {n : Node}, NodeRel spellVocab e.node n → n = e.node
  | .field f, n, h => by
    rw [Arith.node] at h
    cases h with
    | field h => cases h; rfl
  | .lit l, n, h => by
    rw [Arith.node] at h
    cases h with
    | unary h => cases h; rfl
  | .group e, n, h => by rw [Arith.node] at h ⊢; exact arith_spell e h
  | .op o l r, n, h => by
    rw [Arith.node] at h ⊢
    cases h with
    | arith _ h1 h2 => rw [arith_spell l h1, arith_spell r h2]
  | .neg e, n, h => by
    rw [Arith.node] at h ⊢
    cases h with
    | neg h => rw [arith_spell e h]
  | .call f args, n, h => by
    rw [Arith.node] at h ⊢
    cases h with
    | func _ h => rw [args_spell args h]
theorem args_spell : (es : List Arith) → ∀ {ns : List Node}, NodesRel spellVocab (Arith.nodes es) ns → ns = Arith.nodes es
  | [], ns, h => by
    rw [Arith.nodes] at h
    cases h; rfl
  | e :: es, ns, h => by
    rw [Arith.nodes] at h ⊢
    cases h with
    | cons h1 h2 => rw [arith_spell e h1, args_spell es h2]
end

theorem cond_not_leaf (df : Option JStr) : (c : Cond) → (c.node df).isLeaf = false
  | .cmp _ _ _ => rfl
  | .cmpD _ _ => rfl
  | .isNull _ _ => rfl
  | .range _ _ _ => rfl
  | .isIn _ ng _ => by cases ng <;> rfl
  | .contains _ _ _ => rfl
  | .notField _ => rfl
  | .not _ => rfl
  | .group c => cond_not_leaf df c
  | .conn b _ _ => by cases b <;> rfl

theorem field_spell {f : Option JStr} {n : Node} (h : NodeRel spellVocab (.field f) n) : n = .field f := by
  cases h with
  | nofield => rfl
  | field h => cases h; rfl

theorem cond_spell (df : Option JStr) : (c : Cond) → c.Valid → ∀ {n : Node}, NodeRel spellVocab (c.node df) n → n = c.node df
  | .cmp o l r, _, n, h => by
    rw [Cond.node] at h ⊢
    cases h with
    | cmp _ _ h1 h2 => rw [arith_spell l h1, arith_spell r h2]
  | .cmpD o r, _, n, h => by
    rw [Cond.node] at h ⊢
    cases h with
    | cmp _ _ h1 h2 => rw [field_spell h1, arith_spell r h2]
  | .isNull f eq, _, n, h => by
    rw [Cond.node] at h ⊢
    cases h with
    | cmp _ _ h1 h2 => rw [field_spell h1, field_spell h2]
  | .range f lo hi, _, n, h => by
    rw [Cond.node] at h ⊢
    cases h with
    | range h1 h2 h3 => cases h1; cases h2; cases h3; rfl
  | .isIn f ng es, _, n, h => by
    rw [Cond.node] at h ⊢
    cases ng with
    | true =>
      rw [if_pos rfl] at h ⊢
      cases h with
      | not_ h =>
        cases h with
        | inn h1 h2 => cases h1; rw [args_spell es h2]
    | false =>
      rw [if_neg (by simp)] at h ⊢
      cases h with
      | inn h1 h2 => cases h1; rw [args_spell es h2]
  | .contains f o es, _, n, h => by
    rw [Cond.node] at h ⊢
    cases h with
    | array _ h1 h2 => cases h1; rw [args_spell es h2]
  | .notField f, hv, n, h => by
    rw [Cond.node] at h ⊢
    cases h with
    | not_ h =>
      cases h with
      | unary h => cases h; rfl
    | word h =>
      rcases h with h | h
      · rw [h]
      · exact absurd hv (h f rfl)
  | .not c, hv, n, h => by
    rw [Cond.node] at h ⊢
    have hl := cond_not_leaf df c
    generalize hm : c.node df = m at h hl
    cases h with
    | not_ h => rw [← hm] at h; rw [cond_spell df c hv h, hm]
    | word h => cases hl
  | .group c, hv, n, h => by rw [Cond.node] at h ⊢; exact cond_spell df c hv h
  | .conn b l r, hv, n, h => by
    rw [Cond.node] at h ⊢
    cases b with
    | true =>
      rw [if_pos rfl] at h ⊢
      cases h with
      | and_ h1 h2 => rw [cond_spell df l hv.1 h1, cond_spell df r hv.2 h2]
    | false =>
      rw [if_neg (by simp)] at h ⊢
      cases h with
      | or_ h1 h2 => rw [cond_spell df l hv.1 h1, cond_spell df r hv.2 h2]

/-- The standard spelling is read alike. -/
theorem renders_standard {ts : List Token} {s : JStr} (hg : ∀ t ∈ ts, Good t) (hs : Renders (ts.map Token.text) s)
    (df : Option JStr) : OutRel (TopRel spellVocab) (parseExpression s df) (parseExpression (spaced (ts.map Token.text)) df) := by
  refine parseExpression_rel (spells_sim df) ⟨.inr rfl, rfl⟩ ?_
  rw [lex_written (fun t ht => (hg t ht).1) (written_spaced _), ← lex_renders hg hs]
  have hv := lex_valid _ s (Nat.le_refl _)
  generalize lex s = us at hv
  induction us with
  | nil => exact .nil
  | cons u us ih =>
    exact .cons ⟨.inl (valid_classified (hv u (by simp))), rfl⟩ (ih (fun v hv' => hv v (by simp [hv'])))

theorem listen_inv {df : Option JStr} {t : Tree} {n : Node} (h : listen df t = .ok n) :
    ∃ s, walk df t LState.init = .ok s ∧ exitParse s = .ok n := bind_ok_inv h

/-- A parsed tree, the node and the stack. -/
theorem standard_walk {t : Tree} (hg : ∀ u ∈ t.toks, Good u) (hw : Tree.WF 0 t = true) {s : JStr}
    (hs : Written (t.toks.map Token.text) s) {df : Option JStr} {n : Node} (h : parseExpression s df = .success n) :
    ∃ st, walk df t LState.init = .ok st ∧ exitParse st = .ok n := by
  rw [parseExpression, lex_written (fun t ht => (hg t ht).1) hs, parse_toks hw] at h
  simp only at h
  cases hl : listen df t with
  | error e => rw [hl] at h; cases h
  | ok m =>
    rw [hl] at h
    injection h with h
    subst h
    exact listen_inv hl

theorem exitParse_top {s : LState} {n m : Node} {st : NStack} (h : exitParse s = .ok n) (hs : s.stack = m :: st) :
    s.stack = n :: st := by
  rw [exitParse, hs] at h
  simp only at h
  injection h with h
  rw [hs, h]

end BoolParser
