import Verif.Spec.Reference
/-!
# Types

A schema says which fields the data has and of what type they are; an expression is well typed if its operators,
functions and tests fit the types. Nothing is said about the values.
-/

namespace BoolParser.Spec
open BoolParser

/-- Types: whole numbers (`Integer`, `Long`), numbers that can be negated (also `BigDecimal`), all numbers (also
`Double` and `Float`), texts, truth values, dates, date-times, versions. -/
inductive Ty where
  | whole
  | number
  | anyNumber
  | text
  | truth
  | date
  | datetime
  | version

/-- The things of a type. No text in Java is longer than 2³¹ − 1 units. -/
def Ty.Has : Ty → Thing → Prop
  | .whole, .int _ => True
  | .whole, .long _ => True
  | .number, .int _ => True
  | .number, .long _ => True
  | .number, .big _ => True
  | .anyNumber, .int _ => True
  | .anyNumber, .long _ => True
  | .anyNumber, .big _ => True
  | .anyNumber, .float _ => True
  | .text, .text s => (utf16 s).length ≤ 2147483647
  | .truth, .truth _ => True
  | .date, .date _ => True
  | .datetime, .datetime _ => True
  | .version, .version _ => True
  | _, _ => False

/-- What a schema says about a field: a value of a type, a list of them, or perhaps a value of a type. -/
inductive Entry where
  | one (τ : Ty)
  | many (τ : Ty)
  | maybe (τ : Ty)

/-- A schema. -/
abbrev Schema := JStr → Option Entry

/-- At the end of the path there is a value of the type. -/
def PresentAt (d : Data) (ks : List JStr) (τ : Ty) : Prop := ∃ v t, Reaches d ks v ∧ Is v t ∧ τ.Has t

/-- The data has what the schema says. -/
def Conforms (d : Data) (Γ : Schema) : Prop :=
  ∀ f e, Γ f = some e → ∃ ks, Names f ks ∧
    match e with
    | .one τ => PresentAt d ks τ
    | .many τ => ∃ ws, Reaches d ks (.list ws) ∧ ∀ w ∈ ws, ∃ t, Is w t ∧ τ.Has t
    | .maybe τ => Missing d ks ∨ PresentAt d ks τ

/-- The type of a literal; text literals must not begin like a date. -/
inductive LitType : Lit → Ty → Prop
  | int (ds : JStr) : LitType (.int ds) .whole
  | dec (a b : JStr) : LitType (.dec a b) .number
  | ver (c : Char) (p q : JStr) (ps : List JStr) : LitType (.ver c p q ps) .version
  | bool (b : Bool) : LitType (.bool b) .truth
  | str (q : Char) (s : JStr) : Ordinary s → (utf16 s).length ≤ 2147483647 → LitType (.str q s) .text
  | date (x : Date) : LitType (.date x) .date
  | datetime (x : DateTime) : LitType (.datetime x) .datetime

/-- `+`, `-` and `*`. -/
def RingOp (o : ArithOp) : Prop := o = .add ∨ o = .sub ∨ o = .mul

/-- Well typed arithmetic. Division, powers and the functions whose results may not fit are left out: whether they
succeed depends on the values. -/
inductive HasType (Γ : Schema) : Arith → Ty → Prop
  | field {f : JStr} {τ : Ty} : Γ f = some (.one τ) → HasType Γ (.field f) τ
  | lit {l : Lit} {τ : Ty} : l.Valid → LitType l τ → HasType Γ (.lit l) τ
  | group {e : Arith} {τ : Ty} : HasType Γ e τ → HasType Γ (.group e) τ
  | whole {e : Arith} : HasType Γ e .whole → HasType Γ e .number
  | number {e : Arith} : HasType Γ e .number → HasType Γ e .anyNumber
  | ring_whole {o : ArithOp} {l r : Arith} : RingOp o → HasType Γ l .whole → HasType Γ r .whole →
      HasType Γ (.op o l r) .whole
  | ring {o : ArithOp} {l r : Arith} : RingOp o → HasType Γ l .anyNumber → HasType Γ r .anyNumber →
      HasType Γ (.op o l r) .number
  | mod {l : Arith} {ds : JStr} : HasType Γ l .whole → (Lit.int ds).Valid → digitsValue ds ≠ 0 →
      HasType Γ (.op .mod l (.lit (.int ds))) .whole
  | neg_whole {e : Arith} : HasType Γ e .whole → HasType Γ (.neg e) .whole
  | neg {e : Arith} : HasType Γ e .number → HasType Γ (.neg e) .number
  | len {e : Arith} : HasType Γ e .text → HasType Γ (.call .len [e]) .whole
  | call {f : FuncType} {args : List Arith} : f = .min ∨ f = .max ∨ f = .sum → 2 ≤ args.length →
      (∀ e ∈ args, HasType Γ e .whole) → HasType Γ (.call f args) .number

/-- Which types an operator compares: values of the same type; truth values only for equality. -/
def Ty.Compares (o : CmpOp) (τ : Ty) : Prop :=
  match τ with
  | .truth => o = .eq ∨ o = .ne
  | _ => True

/-- Well typed conditions. -/
inductive WellTyped (Γ : Schema) (df : Option JStr) : Cond → Prop
  | cmp {o : CmpOp} {l r : Arith} {τ : Ty} : HasType Γ l τ → HasType Γ r τ → τ.Compares o →
      WellTyped Γ df (.cmp o l r)
  | cmpD {o : CmpOp} {f : JStr} {r : Arith} {τ : Ty} : df = some f → HasType Γ (.field f) τ → HasType Γ r τ →
      τ.Compares o → WellTyped Γ df (.cmpD o r)
  | isNull {f : JStr} {eq : Bool} {τ : Ty} : Γ f = some (.one τ) ∨ Γ f = some (.maybe τ) →
      WellTyped Γ df (.isNull f eq)
  | range {f : JStr} {lo hi : Lit} : HasType Γ (.field f) .anyNumber → WellTyped Γ df (.range f lo hi)
  | isIn {f : JStr} {negated : Bool} {items : List Arith} {τ : Ty} : HasType Γ (.field f) τ →
      (∀ e ∈ items, HasType Γ e τ) → WellTyped Γ df (.isIn f negated items)
  | contains {f : JStr} {o : ArrOp} {items : List Arith} : Γ f = some (.many .text) → (∀ e ∈ items, HasType Γ e .text) →
      WellTyped Γ df (.contains f o items)
  | notField {f : JStr} : Γ f = some (.one .truth) → WellTyped Γ df (.notField f)
  | not {c : Cond} : WellTyped Γ df c → WellTyped Γ df (.not c)
  | group {c : Cond} : WellTyped Γ df c → WellTyped Γ df (.group c)
  | conn {conj : Bool} {l r : Cond} : WellTyped Γ df l → WellTyped Γ df r → WellTyped Γ df (.conn conj l r)

end BoolParser.Spec
