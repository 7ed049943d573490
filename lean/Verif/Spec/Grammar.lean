import Verif.Model.Lexer
/-!
# The published grammar

The parser rules of `BooleanExpression.g4:3-76` as a context-free grammar over token kinds, one constructor per
alternative and nothing about precedence: which sequences of tokens are an `expression` at all.
-/

namespace BoolParser

/-- `wordlist`: `( e , e … )`. -/
def wordlist (e : List TK) (es : List (List TK)) : List TK :=
  .lparen :: (e ++ (es.flatMap (fun x => .comma :: x) ++ [.rparen]))

/-- `types`, the non-empty alternatives. -/
def typesKinds : List TK := [.integer, .decimal, .version, .kTrue, .kFalse, .word, .field, .date, .datetime]

/-- `numericTypes`. -/
def numericKinds : List TK := [.integer, .decimal]

/-- The operators that stand between two expressions: `comparator`, the arithmetic operators, `binary`. -/
def betweenKinds : List TK :=
  [.cmp .gt, .cmp .ge, .cmp .lt, .cmp .le, .cmp .eq, .cmp .ne,
   .arith .exp, .arith .div, .arith .mul, .arith .mod, .arith .add, .arith .sub, .kAnd, .kOr]

/-- `arrayOperators`. -/
def arrayKinds : List TK := [.cAny, .cAll]

/-- `expression` (`BooleanExpression.g4:7-24`). -/
inductive Expression : List TK → Prop
  | paren {e} : Expression e → Expression (.lparen :: (e ++ [.rparen]))
  | not_ {e} : Expression e → Expression (.kNot :: e)
  | minus {e} : Expression e → Expression (.arith .sub :: e)
  | between {l o r} : o ∈ betweenKinds → Expression l → Expression r → Expression (l ++ o :: r)
  | func {f e es} : Expression e → (∀ x ∈ es, Expression x) → Expression (.fn f :: wordlist e es)
  | types {k} : k ∈ typesKinds → Expression [k]
  | omitted : Expression []
  | to_ {lo hi} : lo ∈ numericKinds → hi ∈ numericKinds → Expression [.field, lo, .kTo, hi]
  | in_ {e es} : Expression e → (∀ x ∈ es, Expression x) → Expression (.field :: .kIn :: wordlist e es)
  | notIn {e es} : Expression e → (∀ x ∈ es, Expression x) → Expression (.field :: .kNot :: .kIn :: wordlist e es)
  | array {o e es} : o ∈ arrayKinds → Expression e → (∀ x ∈ es, Expression x) →
      Expression (.field :: o :: wordlist e es)

end BoolParser
