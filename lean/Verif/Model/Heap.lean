import Verif.Model.Cache
/-!
# Evaluation on a heap of objects

The rest of the model treats data and nodes as values. Here they are Java objects with an identity, which
several references may share and which can be changed. The evaluators are written again, statement by
statement, with every allocation and every write to a list or map; `C88` relates them to `Model/Eval`.
-/

namespace BoolParser

/-- The identity of an object. -/
abbrev Addr := Nat

/-- A reference: to an object nobody can change (a number, a text, a date, `null`, an unmodifiable
collection of such), or to an object of the heap. -/
inductive Ref where
  | imm (v : Value)
  | ptr (a : Addr)

/-- `constant/LogicalOperationType.java`. -/
inductive LogicKind where
  | and | or | not
deriving DecidableEq, Repr

/-- The fields of a node object (`domain/**/*.java`). A child is `none` when it is null. The operator of
an `ArithmeticNode` is `none` for `UNARY`. -/
inductive NodeObj where
  | cmp (l r : Option Addr) (op : CmpOp) (dt : DataType)
  | range (f : JStr) (lo hi : Ref) (loT hiT : DataType)
  | inn (f : JStr) (items : Addr)
  | array (f : JStr) (op : ArrOp) (items : Addr)
  | unary (dt : DataType) (v : Ref)
  | bool (op : LogicKind) (l r : Option Addr)
  | field (f : Option JStr)
  | arith (op : Option ArithOp) (l r : Option Addr)
  | func (f : FuncType) (items : Addr)

/-- An object that can be changed: a collection, array or map of the data; a node or the item list of a
node; and the objects evaluation creates for itself: an `EvaluatedNode`
(`domain/EvaluatedNode.java`), a list of them, a list of `BigDecimal`s, the `HashMap` of counts in
`ModeFunction`. -/
inductive Obj where
  | list (xs : List Ref)
  | coll (xs : List Ref)
  | arr (text : JStr) (xs : List Ref)
  | map (es : List (JStr × Ref))
  | node (n : NodeObj)
  | nodes (xs : List (Option Addr))
  | evald (dt : DataType) (v : Ref)
  | evalds (xs : List Addr)
  | decs (xs : List Dec)
  | counts (hm : List (Value × Nat))

/-- The objects in the order of their creation; an address is an index. -/
abbrev Heap := List Obj

/-- Objects at addresses. -/
abbrev Mem := Addr → Option Obj

/-- The objects of a heap at their addresses. -/
def Heap.mem (H : Heap) : Mem := fun a => H[a]?

/-- How a method ends: with a value, with an exception, or not at all within the given depth of calls (a
`StackOverflowError`; also a dangling address, which Java does not have). -/
inductive Out (α : Type) where
  | ok (a : α)
  | thrown (e : Exn)
  | stuck

/-- A method, as the steps it takes on the heap: it reads, changes and creates objects one at a time until
it ends. -/
inductive HM (α : Type) where
  | done (o : Out α)
  | readThen (a : Addr) (next : Obj → HM α)
  | writeThen (a : Addr) (o : Obj) (next : HM α)
  | allocThen (o : Obj) (next : Addr → HM α)

namespace HM

/-- One method after the other; an exception ends both. -/
def andThen {α β : Type} (x : HM α) (f : α → HM β) : HM β :=
  match x with
  | .done (.ok a) => f a
  | .done (.thrown e) => .done (.thrown e)
  | .done .stuck => .done .stuck
  | .readThen a k => .readThen a (fun o => (k o).andThen f)
  | .writeThen a o k => .writeThen a o (k.andThen f)
  | .allocThen o k => .allocThen o (fun a => (k a).andThen f)

instance : Monad HM where
  pure a := .done (.ok a)
  bind := andThen

/-- All steps of a method on a heap, without anybody interfering; it may change the heap, also when it
throws. Reading a dangling address, which Java does not have, has no outcome. -/
def run {α : Type} : HM α → Heap → Out α × Heap
  | .done o, H => (o, H)
  | .readThen a k, H =>
    match H[a]? with
    | some o => (k o).run H
    | none => (.stuck, H)
  | .writeThen a o k, H => k.run (H.set a o)
  | .allocThen o k, H => (k H.length).run (H ++ [o])

instance {α : Type} : CoeFun (HM α) (fun _ => Heap → Out α × Heap) := ⟨run⟩

/-- `throw`. -/
def raise {α : Type} (e : Exn) : HM α := .done (.thrown e)

/-- No outcome. -/
def stuck {α : Type} : HM α := .done .stuck

/-- A computation on values (operators, data types and functions that keep no state of their own). -/
def lift {α : Type} (r : Result α) : HM α :=
  match r with
  | .ok a => .done (.ok a)
  | .error e => .done (.thrown e)

/-- Read an object. -/
def read (a : Addr) : HM Obj := .readThen a (fun o => .done (.ok o))

/-- Replace the contents of an object. -/
def write (a : Addr) (o : Obj) : HM Unit := .writeThen a o (.done (.ok ()))

/-- `new`. -/
def alloc (o : Obj) : HM Addr := .allocThen o (fun a => .done (.ok a))

/-- `forEach`. -/
def forEach {α : Type} (body : α → HM Unit) : List α → HM Unit
  | [] => pure ()
  | x :: xs => do
    body x
    forEach body xs

/-- The results for all elements, in order. -/
def each {α β : Type} (f : α → HM β) : List α → HM (List β)
  | [] => pure []
  | x :: xs => do
    let y ← f x
    let ys ← each f xs
    pure (y :: ys)

/-- The same for the values of the entries of a map. -/
def eachEntry {α β : Type} (f : α → HM β) : List (JStr × α) → HM (List (JStr × β))
  | [] => pure []
  | (k, x) :: xs => do
    let y ← f x
    let ys ← eachEntry f xs
    pure ((k, y) :: ys)

end HM

open HM

/-- Every element, or nothing. -/
def allSome {α β : Type} (f : α → Option β) : List α → Option (List β)
  | [] => some []
  | x :: xs =>
    match f x, allSome f xs with
    | some y, some ys => some (y :: ys)
    | _, _ => none

/-- Every entry, or nothing. -/
def entriesSome {α β : Type} (f : α → Option β) : List (JStr × α) → Option (List (JStr × β))
  | [] => some []
  | (k, x) :: xs =>
    match f x, entriesSome f xs with
    | some y, some ys => some ((k, y) :: ys)
    | _, _ => none

/-- The value seen at a reference, following references to the given depth (what `toString`, `equals` and
iteration see of it). -/
def see : Nat → Mem → Ref → Option Value
  | _, _, .imm v => some v
  | 0, _, .ptr _ => none
  | k + 1, H, .ptr a =>
    match H a with
    | some (.list xs) => (allSome (see k H) xs).map .list
    | some (.coll xs) => (allSome (see k H) xs).map .coll
    | some (.arr t xs) => (allSome (see k H) xs).map (.arr t)
    | some (.map es) => (entriesSome (see k H) es).map .map
    | _ => none

/-- The tree seen at a node, following children to the depth `k` and the values in it to the depth `m`. -/
def seeTree (m : Nat) : Nat → Mem → Option Addr → Option Node
  | 0, _, _ => none
  | _ + 1, _, none => none
  | k + 1, H, some a =>
    match H a with
    | some (.node (.cmp l r op dt)) => do
      let x ← seeTree m k H l
      let y ← seeTree m k H r
      some (.cmp x y op dt)
    | some (.node (.range f lo hi loT hiT)) => do
      let x ← see m H lo
      let y ← see m H hi
      some (.range f x y loT hiT)
    | some (.node (.inn f items)) =>
      match H items with
      | some (.nodes xs) => (allSome (seeTree m k H) xs).map (.inn f)
      | _ => none
    | some (.node (.array f op items)) =>
      match H items with
      | some (.nodes xs) => (allSome (seeTree m k H) xs).map (.array f op)
      | _ => none
    | some (.node (.unary dt v)) => (see m H v).map (.unary dt)
    | some (.node (.bool .and l r)) => do
      let x ← seeTree m k H l
      let y ← seeTree m k H r
      some (.and_ x y)
    | some (.node (.bool .or l r)) => do
      let x ← seeTree m k H l
      let y ← seeTree m k H r
      some (.or_ x y)
    | some (.node (.bool .not l _)) => (seeTree m k H l).map .not_
    | some (.node (.field f)) => some (.field f)
    | some (.node (.arith (some op) l r)) => do
      let x ← seeTree m k H l
      let y ← seeTree m k H r
      some (.arith op x y)
    | some (.node (.arith none l _)) => (seeTree m k H l).map .neg
    | some (.node (.func f items)) =>
      match H items with
      | some (.nodes xs) => (allSome (seeTree m k H) xs).map (.func f)
      | _ => none
    | _ => none

/-- An operand as the data types and operators see it: they call `toString`, `instanceof`, `equals` and
iterate, and write nothing (`datatype/*.java`, `operator/**/*.java`, `util/ValueUtils.java`).
Simplification: the whole operand is read, to the depth `m` and one object at a time, where some of them read
less or several times. -/
def deep : Nat → Ref → HM Value
  | _, .imm v => pure v
  | 0, .ptr _ => HM.stuck
  | m + 1, .ptr a => do
    match ← read a with
    | .list xs => do
      let vs ← each (deep m) xs
      pure (.list vs)
    | .coll xs => do
      let vs ← each (deep m) xs
      pure (.coll vs)
    | .arr t xs => do
      let vs ← each (deep m) xs
      pure (.arr t vs)
    | .map es => do
      let fs ← eachEntry (deep m) es
      pure (.map fs)
    | _ => HM.stuck

/-- Read a node object. -/
def readNode (a : Addr) : HM NodeObj := do
  match ← read a with
  | .node n => pure n
  | _ => HM.stuck

/-- Read the item list of a node. -/
def readNodes (a : Addr) : HM (List (Option Addr)) := do
  match ← read a with
  | .nodes xs => pure xs
  | _ => HM.stuck

/-- `List.add` on an `ArrayList<Object>`. -/
def addRef (a : Addr) (r : Ref) : HM Unit := do
  match ← read a with
  | .list xs => write a (.list (xs ++ [r]))
  | _ => HM.stuck

/-- `List.add` on an `ArrayList<EvaluatedNode>`. -/
def addEvald (a : Addr) (e : Addr) : HM Unit := do
  match ← read a with
  | .evalds xs => write a (.evalds (xs ++ [e]))
  | _ => HM.stuck

/-- `Map.get`. -/
def refGet (es : List (JStr × Ref)) (k : JStr) : Option Ref :=
  match es with
  | [] => none
  | (k', r) :: es => if k' = k then some r else refGet es k

/-- `ValueUtils.getValueFromMap` over the parts of the key (`util/ValueUtils.java:20-38`), like
`walkKeys`; the reference found is returned, not a copy. -/
def walkH : List JStr → Addr → HM (Option Ref)
  | [], _ => raise .indexOutOfBounds
  | [k], a => do
    match ← read a with
    | .map es =>
      match refGet es k with
      | none => pure none
      | some (.imm .null) => pure none
      | some r => pure (some r)
    | _ => HM.stuck
  | k :: k2 :: ks, a => do
    match ← read a with
    | .map es =>
      match refGet es k with
      | some (.ptr b) => do
        match ← read b with
        | .map _ => walkH (k2 :: ks) b
        | _ => pure none
      | some (.imm (.map fs)) => do
        let o ← lift (walkKeys (k2 :: ks) fs)
        pure (o.map .imm)
      | _ => pure none
    | _ => HM.stuck

/-- `getValueFromMap(field, data)`; `key.split` throws on null. -/
def lookupFieldH (d : Addr) (f : Option JStr) : HM (Option Ref) :=
  match f with
  | none => raise .nullPointer
  | some k => walkH (splitKey k) d

/-- `getValueFromMap(..).orElseThrow(DataNotFoundException)`. -/
def requireFieldH (d : Addr) (f : Option JStr) : HM Ref := do
  match ← lookupFieldH d f with
  | some r => pure r
  | none => raise .dataNotFound

/-- `Optional.of`. -/
def optOfH : Ref → HM (Option Ref)
  | .imm .null => raise .nullPointer
  | r => pure (some r)

/-- `value instanceof Collection`, and then its elements. -/
def elementsH : Ref → HM (Option (List Ref))
  | .imm (.list xs) => pure (some (xs.map .imm))
  | .imm (.coll xs) => pure (some (xs.map .imm))
  | .imm _ => pure none
  | .ptr a => do
    match ← read a with
    | .list xs => pure (some xs)
    | .coll xs => pure (some xs)
    | _ => pure none

/-- `flattenedValues.add(EvaluatedNode.builder().value(v).dataType(getDataType(v)).build())`
(`util/ValueUtils.java:54-57`). -/
def addFlat (m : Nat) (out : Addr) (r : Ref) : HM Unit := do
  let v ← deep m r
  let e ← alloc (.evald (getDataType v) r)
  addEvald out e

/-- The body of the loop of `mapToEvaluatedNodes` (`util/ValueUtils.java:42-59`) for a value that is not
an `EvaluatedNode`. -/
def flatOne (m : Nat) (out : Addr) (r : Ref) : HM Unit := do
  match ← elementsH r with
  | some ys => forEach (addFlat m out) ys
  | none => addFlat m out r

/-- `ValueUtils.mapToEvaluatedNodes` (`util/ValueUtils.java:40-60`); the list `resolved` holds no
`EvaluatedNode`s. -/
def mapToEvaluatedNodesH (m : Nat) (resolved : Addr) : HM Addr := do
  let out ← alloc (.evalds [])
  match ← read resolved with
  | .list xs => do
    forEach (flatOne m out) xs
    pure out
  | _ => HM.stuck

/-- What a stream over a list of `EvaluatedNode`s sees. -/
def typedH (m : Nat) : List Addr → HM (List Typed)
  | [] => pure []
  | e :: es => do
    match ← read e with
    | .evald dt r => do
      let v ← deep m r
      let xs ← typedH m es
      pure ((v, dt) :: xs)
    | _ => HM.stuck

/-- The same, from the list object. -/
def readTyped (m : Nat) (a : Addr) : HM (List Typed) := do
  match ← read a with
  | .evalds es => typedH m es
  | _ => HM.stuck

/-- The checks of `FunctionEvaluatorService.evaluateArithmeticFunction` before the function itself is
called (`function/FunctionEvaluatorService.java:24-44`). -/
def checkCall (f : FuncType) (items : List Typed) : Result Unit := do
  if items.isEmpty then throw .invalidExpression
  if !(if 1 < items.length then f.allowsMany else f.allowsOne) then throw .invalidContainerType
  if !(items.all (fun x => f.allows x.2)) then throw .invalidDataType
  validateItems items

/-- `Collections.sort(itemsConverted)`: in place. -/
def sortH (a : Addr) : HM Unit := do
  match ← read a with
  | .decs xs => write a (.decs (sortDecs xs))
  | _ => HM.stuck

/-- `itemsConverted.get(i)`. -/
def getAtH (a : Addr) (i : Nat) : HM Dec := do
  match ← read a with
  | .decs xs => lift (getAt xs i)
  | _ => HM.stuck

/-- `MedianFunction.evaluate` (`function/arithmetic/MedianFunction.java:26-41`): the values are converted
into a new list, which is sorted in place. -/
def medianH (items : List Typed) : HM Value := do
  let ds ← lift (mapGetOpt asDec items)
  let converted ← alloc (.decs ds)
  sortH converted
  let n := items.length
  if n % 2 = 0 then do
    let a ← getAtH converted (n / 2)
    let b ← getAtH converted (n / 2 - 1)
    let q ← lift ((a.add b).divDown (Dec.ofInt 2) 2)
    lift (castDecimal q)
  else do
    let a ← getAtH converted (n / 2)
    lift (castDecimal a)

/-- The loop of `ModeFunction.evaluate` (`function/arithmetic/ModeFunction.java:26-42`): `hm` is changed
in place, `max` and `temp` are local variables. -/
def modeLoopH (hm : Addr) : List Value → Nat → Value → HM Value
  | [], _, temp => pure temp
  | v :: vs, mx, temp => do
    match ← read hm with
    | .counts es =>
      match countOf es v with
      | some c => do
        write hm (.counts (putCount es v (c + 1)))
        if mx < c + 1 then modeLoopH hm vs (c + 1) v else modeLoopH hm vs mx temp
      | none => do
        write hm (.counts (putCount es v 1))
        modeLoopH hm vs mx temp
    | _ => HM.stuck

/-- `ModeFunction.evaluate` (`function/arithmetic/ModeFunction.java:21-50`). -/
def modeH (items : List Typed) : HM Value := do
  let hm ← alloc (.counts [])
  match items with
  | [] => raise .indexOutOfBounds
  | x :: _ => do
    let temp ← modeLoopH hm (items.map Prod.fst) 1 x.1
    match temp with
    | .dec d => lift (castDecimal d)
    | .long n => pure (castLong n)
    | v => pure v

/-- `FunctionEvaluatorService.evaluateArithmeticFunction` (`function/FunctionEvaluatorService.java:23-46`).
The functions other than MEDIAN and MODE are streams without side effects. -/
def callFnH (env : Env) (m : Nat) (f : FuncType) (flat : Addr) : HM Value := do
  let items ← readTyped m flat
  lift (checkCall f items)
  match f with
  | .median => medianH items
  | .mode => modeH items
  | f => lift (evalFn env f items)

/-- `ArithmeticExpressionEvaluator.evaluateToken` and the methods it dispatches to
(`application/ArithmeticExpressionEvaluator.java:50-121`). The stream of lines 78-81 collects into a new
list. -/
def evalArithH (env : Env) (m : Nat) (d : Addr) : Nat → Option Addr → HM Ref
  | 0, _ => HM.stuck
  | _ + 1, none => raise .nullPointer
  | k + 1, some a => do
    match ← readNode a with
    | .arith (some op) l r => do
      let x ← evalArithH env m d k l
      let y ← evalArithH env m d k r
      let a ← deep m x
      let b ← deep m y
      let v ← lift (arithBinary env op a (getDataType a) b (getDataType b))
      pure (.imm v)
    | .arith none l _ => do
      let x ← evalArithH env m d k l
      let a ← deep m x
      let v ← lift (arithNegate a (getDataType a))
      pure (.imm v)
    | .func f items => do
      let resolved ← alloc (.list [])
      let ns ← readNodes items
      forEach (fun n => do
        let r ← evalArithH env m d k n
        addRef resolved r) ns
      let flat ← mapToEvaluatedNodesH m resolved
      let v ← callFnH env m f flat
      pure (.imm v)
    | .unary _ v => pure v
    | .field f => requireFieldH d f
    | _ => raise .unsupportedToken

/-- `BooleanExpressionEvaluator.getValue` (`application/BooleanExpressionEvaluator.java:76-89`); `ev` is
`evaluateToken`. -/
def operandH (env : Env) (m : Nat) (d : Addr) (k : Nat) (ev : Option Addr → HM Bool) : Option Addr → HM (Option Ref)
  | none => raise .nullPointer
  | some a => do
    match ← readNode a with
    | .field f => lookupFieldH d f
    | .unary _ v => optOfH v
    | .arith _ _ _ => do
      let r ← evalArithH env m d k (some a)
      optOfH r
    | .func _ _ => do
      let r ← evalArithH env m d k (some a)
      optOfH r
    | _ => do
      let b ← ev (some a)
      pure (some (.imm (.bool b)))

/-- `instanceof FieldNode && isNull()` (`domain/FieldNode.java:22-24`). -/
def isNullFieldH : Option Addr → HM Bool
  | none => pure false
  | some a => do
    match ← readNode a with
    | .field (some f) => pure (lower f == j!"null")
    | .field none => raise .nullPointer
    | _ => pure false

/-- `ComparisonNode.isNullCheck` (`domain/logical/ComparisonNode.java:34-36`). -/
def isNullCheckH (op : CmpOp) (l r : Option Addr) : HM Bool :=
  if op == .eq || op == .ne then do
    let b ← isNullFieldH r
    if b then pure true else isNullFieldH l
  else pure false

/-- The loop body of `resolveArrayElements` (`application/BooleanExpressionEvaluator.java:133-138`). -/
def itemH (env : Env) (m : Nat) (d : Addr) (k : Nat) (ev : Option Addr → HM Bool) : Option Addr → HM Ref
  | none => raise .nullPointer
  | some a => do
    match ← readNode a with
    | .field _ => evalArithH env m d k (some a)
    | .unary _ _ => evalArithH env m d k (some a)
    | .arith _ _ _ => evalArithH env m d k (some a)
    | .func _ _ => evalArithH env m d k (some a)
    | _ => do
      let b ← ev (some a)
      pure (.imm (.bool b))

/-- `resolveArrayElements` (`application/BooleanExpressionEvaluator.java:130-141`), and what is then read
off the new list. Simplification: the list of pairs made of it (lines 122-125 and 153-156) is not
allocated. -/
def resolveH (env : Env) (m : Nat) (d : Addr) (k : Nat) (ev : Option Addr → HM Bool) (items : Addr) :
    HM (List Typed) := do
  let resolved ← alloc (.list [])
  let ns ← readNodes items
  forEach (fun n => do
    let r ← itemH env m d k ev n
    addRef resolved r) ns
  let flat ← mapToEvaluatedNodesH m resolved
  readTyped m flat

/-- `evaluateUnaryToken` (`application/BooleanExpressionEvaluator.java:160-170`). -/
def evalUnaryH (m : Nat) (d : Addr) (dt : DataType) (r : Ref) : HM Bool := do
  let v ← deep m r
  if dt == .boolean then
    match v with
    | .bool b => pure b
    | .null => raise .nullPointer
    | _ => raise .classCast
  else do
    let k ← lift (toText v)
    let x ← requireFieldH d (some k)
    match x with
    | .imm (.bool b) => pure b
    | _ => raise .invalidUnaryOperand

/-- `BooleanExpressionEvaluator.evaluateToken` and the methods it dispatches to
(`application/BooleanExpressionEvaluator.java:57-181`). -/
def evalBoolH (env : Env) (m : Nat) (d : Addr) : Nat → Option Addr → HM Bool
  | 0, _ => HM.stuck
  | _ + 1, none => raise .nullPointer
  | k + 1, some a => do
    match ← readNode a with
    | .cmp l r op _ => do
      let lo ← operandH env m d k (evalBoolH env m d k) l
      let nc ← isNullCheckH op l r
      let x ← (if nc then pure (lo.getD (.imm (.str j!"null")))
               else match lo with
                 | some v => pure v
                 | none => raise .dataNotFound : HM Ref)
      let y ← (if nc then pure (.imm (.str j!"null"))
               else do
                 match ← operandH env m d k (evalBoolH env m d k) r with
                 | some v => pure v
                 | none => raise .noSuchElement : HM Ref)
      let a ← deep m x
      let b ← deep m y
      lift (logicalCmp op a (getDataType a) b (getDataType b))
    | .range f lo hi loT hiT => do
      let x ← requireFieldH d (some f)
      let v ← deep m x
      let a ← deep m lo
      let b ← deep m hi
      let p ← lift (logicalCmp .ge v (getDataType v) a loT)
      let q ← lift (logicalCmp .le v (getDataType v) b hiT)
      pure (p && q)
    | .inn f items => do
      let x ← requireFieldH d (some f)
      let v ← deep m x
      let rs ← resolveH env m d k (evalBoolH env m d k) items
      lift (logicalIn v (getDataType v) rs)
    | .array f op items => do
      let x ← requireFieldH d (some f)
      let v ← deep m x
      let rs ← resolveH env m d k (evalBoolH env m d k) items
      if heterogeneous rs then raise .heterogeneousArray
      lift (logicalArray op v (getDataType v) rs)
    | .unary dt v => evalUnaryH m d dt v
    | .bool .and l r => do
      let a ← evalBoolH env m d k l
      if a then evalBoolH env m d k r else pure false
    | .bool .or l r => do
      let a ← evalBoolH env m d k l
      if a then pure true else evalBoolH env m d k r
    | .bool .not l _ => do
      let a ← evalBoolH env m d k l
      pure (!a)
    | .field _ => pure false
    | .arith _ _ _ => pure false
    | .func _ _ => pure false

end BoolParser
