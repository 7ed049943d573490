import Verif.Spec.Fragment
/-!
# What a function sees of its arguments (for C44)

`pending` are the compound arguments of the call that have not been used yet, the last one first.
-/

namespace BoolParser.Spec.Arith

/-- What one argument becomes, and what is left of `pending`. A field, a literal and one operator between two of these
are as written. A compound operand is not what is written: in its place stands the last pending argument. -/
def seenAs : Arith → List Arith → Option (Arith × List Arith)
  | .op o l r, pending =>
    if l.isAtom && r.isAtom then some (.op o l r, pending)
    else if l.isAtom then
      match pending with
      | c :: rest => some (.op o l c, rest)
      | [] => none
    else if r.isAtom then
      match pending with
      | c :: rest => some (.op o c r, rest)
      | [] => none
    else
      match pending with
      | c :: c' :: rest => some (.op o c' c, rest)
      | _ => none
  | .group _, _ => none
  | e, pending => some (e, pending)

/-- One argument after the other. -/
def seenAll : List Arith → List Arith → Option (List Arith)
  | [], _ => some []
  | e :: es, pending =>
    match e.seenAs pending with
    | none => none
    | some (e', rest) => (seenAll es rest).map (e' :: ·)

/-- What a call sees of its arguments; `none`: the expression is refused. -/
def seen (args : List Arith) : Option (List Arith) := seenAll args (args.filter (fun e => !e.isAtom)).reverse

end BoolParser.Spec.Arith
