import Verif.Lemmas.Literals
import Verif.Lemmas.Unfold
import Verif.Lemmas.Listening
/-!
# Literals that cannot be converted
-/

namespace BoolParser
open Spec

theorem convert_huge {ds : JStr} (h : IsDigits ds) (hb : 9223372036854775807 < digitsValue ds) :
    convertValue ds (tokType ⟨.integer, ds⟩) = .error .numberFormat := by
  have e : tokType ⟨.integer, ds⟩ = numericType ds := rfl
  rw [e, numericType_digits h, if_neg (by omega)]
  have : parseInt64 ds = none := by
    rw [parseInt64, parseSigned_digits h.1 h.2]
    rw [digitsValue_eq] at hb
    simp only
    rw [if_neg]
    unfold InInt64
    omega
  simp only [convertValue, this]

/-- The token `k` is used as an operand somewhere in the tree: in an arithmetic operation, as an argument,
a list item or a bound, on the left of a comparison, or on the right of one whose left operand is
compound. -/
inductive UsesOperand (k : Token) : Tree → Prop
  | arithL {o : ArithOp} {r : Tree} : UsesOperand k (.arith o (.types k false) r)
  | arithR {o : ArithOp} {l : Tree} : UsesOperand k (.arith o l (.types k false))
  | cmpL {o : CmpOp} {r : Tree} : UsesOperand k (.cmp o (.types k false) r)
  | cmpR {o : CmpOp} {l : Tree} : l.isTypes = false → UsesOperand k (.cmp o l (.types k false))
  | arg {f : FuncType} {items : List Tree} : .types k false ∈ items → UsesOperand k (.func f items)
  | item {f : Token} {n : Bool} {items : List Tree} : .types k false ∈ items → UsesOperand k (.in_ f n items)
  | element {f : Token} {o : ArrOp} {items : List Tree} : .types k false ∈ items →
      UsesOperand k (.array f o items)
  | low {f hi : Token} : UsesOperand k (.to_ f k hi)
  | high {f lo : Token} : UsesOperand k (.to_ f lo k)
  | inParen {t : Tree} : UsesOperand k t → UsesOperand k (.paren t)
  | inNot {t : Tree} : UsesOperand k t → UsesOperand k (.not_ t)
  | inNeg {t : Tree} : UsesOperand k t → UsesOperand k (.neg t)
  | inCmpL {o : CmpOp} {l r : Tree} : UsesOperand k l → UsesOperand k (.cmp o l r)
  | inCmpR {o : CmpOp} {l r : Tree} : UsesOperand k r → UsesOperand k (.cmp o l r)
  | inArithL {o : ArithOp} {l r : Tree} : UsesOperand k l → UsesOperand k (.arith o l r)
  | inArithR {o : ArithOp} {l r : Tree} : UsesOperand k r → UsesOperand k (.arith o l r)
  | inBinL {b : Bool} {l r : Tree} : UsesOperand k l → UsesOperand k (.bin b l r)
  | inBinR {b : Bool} {l r : Tree} : UsesOperand k r → UsesOperand k (.bin b l r)
  | inArg {f : FuncType} {items : List Tree} {t : Tree} : t ∈ items → UsesOperand k t → UsesOperand k (.func f items)
  | inItem {f : Token} {n : Bool} {items : List Tree} {t : Tree} : t ∈ items → UsesOperand k t →
      UsesOperand k (.in_ f n items)
  | inElement {f : Token} {o : ArrOp} {items : List Tree} {t : Tree} : t ∈ items → UsesOperand k t →
      UsesOperand k (.array f o items)

/-- A computation that fails. -/
def Fails {α : Type} (r : Result α) : Prop := ∃ e, r = .error e

theorem Fails.bind {α β : Type} {r : Result α} (h : Fails r) (f : α → Result β) : Fails (r >>= f) := by
  obtain ⟨e, rfl⟩ := h; exact ⟨e, rfl⟩

theorem fails_bind_right {α β : Type} {r : Result α} {f : α → Result β} (h : ∀ a, Fails (f a)) :
    Fails (r >>= f) := by
  cases r with
  | error e => exact ⟨e, rfl⟩
  | ok a => exact h a

variable {k : Token} (hk : k.kind = .integer) (hc : Fails (convertValue k.text (tokType k)))
include hk hc

theorem mapNode_huge (df : Option JStr) (st : NStack) : Fails (mapNode df (.types k false) st) := by
  rw [mapNode]
  refine Fails.bind ?_ _
  rw [mapTypes, if_neg (by rw [hk]; simp), if_neg (by simp)]
  exact hc.bind _

theorem mapNodes_huge (df : Option JStr) {items : List Tree} (h : .types k false ∈ items) (st : NStack) :
    Fails (mapNodes df items st) := by
  induction items generalizing st with
  | nil => cases h
  | cons t ts ih =>
    rw [mapNodes]
    rcases List.mem_cons.mp h with e | h
    · rw [← e]; exact (mapNode_huge hk hc df st).bind _
    · refine fails_bind_right fun p => ?_
      obtain ⟨n, st'⟩ := p
      exact (ih h st').bind _

omit hk hc in
theorem walkAll_fails {df : Option JStr} {items : List Tree} {t : Tree} (h : t ∈ items)
    (ht : ∀ s, Fails (walk df t s)) (s : LState) : Fails (walkAll df items s) := by
  induction items generalizing s with
  | nil => cases h
  | cons u us ih =>
    rw [walkAll]
    rcases List.mem_cons.mp h with e | h
    · rw [← e]; exact (ht s).bind _
    · exact fails_bind_right fun s' => ih h s'

theorem mapNode_arithL (df : Option JStr) (o : ArithOp) (r : Tree) (st : NStack) :
    Fails (mapNode df (.arith o (.types k false) r) st) := by
  rw [mapNode_arith]
  split
  · exact (mapNode_huge hk hc df st).bind _
  · split
    · exact (mapNode_huge hk hc df st).bind _
    · rename_i h; exact absurd rfl h

theorem mapNode_arithR (df : Option JStr) (o : ArithOp) (l : Tree) (st : NStack) :
    Fails (mapNode df (.arith o l (.types k false)) st) := by
  rw [mapNode_arith]
  split
  · refine fails_bind_right fun p => ?_
    obtain ⟨n, st'⟩ := p
    exact (mapNode_huge hk hc df st').bind _
  · rename_i h
    split
    · rename_i h'; rw [h'] at h; exact absurd rfl h
    · split
      · exact (mapNode_huge hk hc df st).bind _
      · rename_i h; exact absurd rfl h

theorem mapNode_cmpL (df : Option JStr) (o : CmpOp) (r : Tree) (st : NStack) :
    Fails (mapNode df (.cmp o (.types k false) r) st) := by
  rw [mapNode]
  split
  · exact (mapNode_huge hk hc df st).bind _
  · rename_i h
    split
    · rename_i h'
      simp only [Bool.and_eq_true] at h h'
      exact absurd ⟨h'.1, rfl⟩ h
    · refine fails_bind_right fun p => ?_
      obtain ⟨n, st'⟩ := p
      exact (mapNode_huge hk hc df st').bind _

theorem mapNode_cmpR (df : Option JStr) (o : CmpOp) {l : Tree} (hl : l.isTypes = false ) (st : NStack) :
    Fails (mapNode df (.cmp o l (.types k false)) st) := by
  rw [mapNode]
  split
  · rename_i h; rw [hl] at h; simp at h
  · split
    · exact (mapNode_huge hk hc df st).bind _
    · exact (mapNode_huge hk hc df st).bind _

/-- With an empty stack the literal on the right of a comparison is always converted. -/
theorem mapNode_cmp_empty (df : Option JStr) (o : CmpOp) (l : Tree) :
    Fails (mapNode df (.cmp o l (.types k false)) []) := by
  rw [mapNode]
  simp only [useStack, Bool.false_and, Bool.false_eq_true, if_false]
  exact (mapNode_huge hk hc df []).bind _

theorem walk_huge (df : Option JStr) {t : Tree} (h : UsesOperand k t) : ∀ s, Fails (walk df t s) := by
  have hex : ∀ {t : Tree}, (∀ st, Fails (mapNode df t st)) → ∀ s, Fails (exitMapped df t s) := by
    intro t ht s; rw [exitMapped]; exact (ht s.stack).bind _
  induction h with
  | arithL =>
    intro s; rw [walk]
    exact fails_bind_right fun s => fails_bind_right fun s => hex (mapNode_arithL hk hc df _ _) s
  | arithR =>
    intro s; rw [walk]
    exact fails_bind_right fun s => fails_bind_right fun s => hex (mapNode_arithR hk hc df _ _) s
  | cmpL =>
    intro s; rw [walk]
    exact fails_bind_right fun s => fails_bind_right fun s => hex (mapNode_cmpL hk hc df _ _) s
  | cmpR hl =>
    intro s; rw [walk]
    exact fails_bind_right fun s => fails_bind_right fun s => hex (mapNode_cmpR hk hc df _ hl) s
  | arg h =>
    intro s; rw [walk]
    refine fails_bind_right fun s => hex (fun st => ?_) s
    rw [mapNode]; exact (mapNodes_huge hk hc df h st).bind _
  | item h =>
    intro s; rw [walk]
    refine fails_bind_right fun s => hex (fun st => ?_) s
    rw [mapNode]; exact (mapNodes_huge hk hc df h st).bind _
  | element h =>
    intro s; rw [walk]
    refine fails_bind_right fun s => ?_
    rw [exitArray]; exact (mapNodes_huge hk hc df h s.stack).bind _
  | low =>
    intro s; rw [walk]
    refine hex (fun st => ?_) s
    rw [mapNode]; exact hc.bind _
  | high =>
    intro s; rw [walk]
    refine hex (fun st => ?_) s
    rw [mapNode]; exact fails_bind_right fun _ => hc.bind _
  | inParen _ ih => intro s; rw [walk]; exact ih s
  | inNot _ ih => intro s; rw [walk]; exact (ih s).bind _
  | inNeg _ ih => intro s; rw [walk]; exact (ih s).bind _
  | inCmpL _ ih => intro s; rw [walk]; exact (ih s).bind _
  | inCmpR _ ih => intro s; rw [walk]; exact fails_bind_right fun s => (ih s).bind _
  | inArithL _ ih => intro s; rw [walk]; exact (ih s).bind _
  | inArithR _ ih => intro s; rw [walk]; exact fails_bind_right fun s => (ih s).bind _
  | inBinL _ ih => intro s; rw [walk]; exact (ih s).bind _
  | inBinR _ ih => intro s; rw [walk]; exact fails_bind_right fun s => (ih s).bind _
  | inArg h _ ih => intro s; rw [walk]; exact (walkAll_fails h ih s).bind _
  | inItem h _ ih => intro s; rw [walk]; exact (walkAll_fails h ih s).bind _
  | inElement h _ ih => intro s; rw [walk]; exact (walkAll_fails h ih s).bind _

end BoolParser
