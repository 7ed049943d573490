import Verif.Model.Eval
/-!
# Unfolding lemmas: the model's `do` blocks as nested conditionals
-/

namespace BoolParser

theorem arithBinary_eq (env : Env) (op : ArithOp) (l : Value) (lt : DataType) (r : Value) (rt : DataType) :
    arithBinary env op l lt r rt =
    if !op.allows lt then .error .invalidDataType
    else isValid lt l >>= fun b =>
      if !b then .error .invalidDataType
      else if !op.allows rt then .error .invalidDataType
      else rightValid rt r >>= fun b =>
        if !b then .error .invalidDataType else evalArithOp env op l lt r rt := rfl

theorem arithNegate_eq (v : Value) (t : DataType) : arithNegate v t =
    if !(t == .integer || t == .long || t == .decimal) then .error .invalidDataType
    else isValid t v >>= fun b => if !b then .error .invalidDataType else evalNeg v t := rfl

theorem callFn_eq (env : Env) (f : FuncType) (items : List Typed) : callFn env f items =
    if items.isEmpty then .error .invalidExpression
    else if !(if 1 < items.length then f.allowsMany else f.allowsOne) then .error .invalidContainerType
    else if !(items.all (fun x => f.allows x.2)) then .error .invalidDataType
    else validateItems items >>= fun _ => evalFn env f items := rfl

theorem logicalCmp_eq (op : CmpOp) (l : Value) (lt : DataType) (r : Value) (rt : DataType) :
    logicalCmp op l lt r rt =
    if !op.allows lt then .error .invalidDataType
    else isValid lt l >>= fun b =>
      if !b then .error .invalidDataType
      else if !op.allows rt then .error .invalidDataType
      else evalCmpOp op l lt r rt := rfl

theorem logicalIn_eq (l : Value) (lt : DataType) (rs : List Typed) : logicalIn l lt rs =
    isValid lt l >>= fun b => if !b then .error .invalidDataType else evalIn l lt rs := rfl

theorem logicalArray_eq (op : ArrOp) (l : Value) (lt : DataType) (rs : List Typed) : logicalArray op l lt rs =
    isValidList lt l >>= fun b => if !b then .error .invalidDataType else evalArray op l lt rs := rfl

theorem validateItems_cons (x : Typed) (xs : List Typed) : validateItems (x :: xs) =
    isValid x.2 x.1 >>= fun b => if !b then .error .invalidDataType else validateItems xs := rfl

theorem flattenItems_cons (v : Value) (vs : List Value) : flattenItems (v :: vs) =
    (match v with
     | .list xs => xs.map (fun x => (x, getDataType x))
     | .coll xs => xs.map (fun x => (x, getDataType x))
     | w => [(w, getDataType w)]) ++ flattenItems vs := rfl

theorem ok_bind {α β : Type} (a : α) (f : α → Result β) : (Except.ok a >>= f) = f a := rfl
theorem err_bind {α β : Type} (e : Exn) (f : α → Result β) : ((Except.error e : Result α) >>= f) = .error e := rfl

end BoolParser
