import Mathlib.Data.List.Forall2
import Verif.Spec.Grammar
import Verif.Spec.Tokens
import Verif.Spec.Expr
/-!
# What the parser says of a text it refuses (for C102)

Over the tokens of the text (`Cut`), their kinds (`Classified`) and the published grammar (`Expression`).
-/

namespace BoolParser.Spec

/-- The tokens `p` are an expression of the grammar. -/
def IsExpr (p : List JStr) : Prop := ∃ ks, List.Forall₂ Classified p ks ∧ Expression ks

/-- A name, a literal, or an operand left out. -/
def IsOperand (p : List JStr) : Prop := p = [] ∨ ∃ t k, p = [t] ∧ Classified t k ∧ k ∈ typesKinds

/-- The last token is of the kind `k`. -/
def EndsIn (p : List JStr) (k : TK) : Prop := ∃ q t, p = q ++ [t] ∧ Classified t k

/-- The first token is of the kind `k`. -/
def StartsIn (p : List JStr) (k : TK) : Prop := ∃ t q, p = t :: q ∧ Classified t k

/-- Expressions that can be neither the item of a list nor the side of a comparison: with parentheses, minus or NOT in
front, joined by AND or OR, or a CONTAINS test. -/
inductive Unlisted : List JStr → Prop
  | paren {o e c} : Classified o .lparen → IsExpr e → Classified c .rparen → Unlisted (o :: (e ++ [c]))
  | minus {o e} : Classified o (.arith .sub) → IsExpr e → Unlisted (o :: e)
  | not_ {o e} : Classified o .kNot → IsExpr e → Unlisted (o :: e)
  | joined {l o r} : (Classified o .kAnd ∨ Classified o .kOr) → IsExpr l → IsExpr r → Unlisted (l ++ o :: r)
  | contains {f o p} : Classified f .field → (Classified o .cAll ∨ Classified o .cAny) → IsExpr (f :: o :: p) →
      Unlisted (f :: o :: p)

/-- What stands between `pre` and `post` is an item of a list or arguments, or a side of a comparison. -/
def InSlot (pre post : List JStr) : Prop :=
  ((EndsIn pre .lparen ∨ EndsIn pre .comma) ∧ (StartsIn post .comma ∨ StartsIn post .rparen)) ∨
  (∃ o, EndsIn pre (.cmp o)) ∨ ∃ o, StartsIn post (.cmp o)

/-- The messages about a text with the tokens `ts`: each quotes the piece of the text it is about, without white space. -/
inductive Reproach (ts : List JStr) : JStr → Prop
  | part {pre p post} : ts = pre ++ p ++ post → InSlot pre post → Unlisted p →
      Reproach ts (j!"Array does not support this expression " ++ p.flatten)
  | calculation {pre l o op r post} : ts = pre ++ (l ++ o :: r) ++ post → Classified o (.arith op) → IsExpr l → IsExpr r →
      ¬ IsOperand l → ¬ IsOperand r → Reproach ts (j!"Error parsing expression for the string " ++ (l ++ o :: r).flatten)
  | joined {pre l o r post} : ts = pre ++ (l ++ o :: r) ++ post → (Classified o .kAnd ∨ Classified o .kOr) → IsExpr l →
      IsExpr r → Reproach ts (j!"Error parsing binary expression for the string " ++ (l ++ o :: r).flatten)

/-- A field or literal, alone, after a minus or in parentheses. -/
def Brief (e : Arith) : Prop := e.isAtom = true ∨ ∃ x : Arith, x.isAtom = true ∧ (e = .neg x ∨ e = .group x)

end BoolParser.Spec
