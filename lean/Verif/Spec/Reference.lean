import Verif.Spec.Functions
import Verif.Spec.DateTexts
import Verif.Spec.Paths
/-!
# A reference semantics

What an expression should give, rule by rule, in terms of mathematical numbers, texts, dates and versions. Nothing
here refers to the evaluators of the model; `Value`, the data a caller passes in and gets back, occurs only in `Is`
and in the rules that read a field.
-/

namespace BoolParser.Spec
open BoolParser

/-- What a value is, seen from outside: a whole number in an `Integer` or a `Long`, a number in a `BigDecimal`, a
number in a `Double` or `Float`, a text, a truth value, a date, a date-time, a version. -/
inductive Thing where
  | int (n : ℤ)
  | long (n : ℤ)
  | big (x : ℚ)
  | float (x : ℚ)
  | text (s : JStr)
  | truth (b : Bool)
  | date (d : Date)
  | datetime (t : DateTime)
  | version (v : List ℕ)

/-- The value `v` is the thing. Texts that begin like a date are dates (if they are one in full), not texts. -/
inductive Is : Value → Thing → Prop
  | int {n : ℤ} : InInt32 n → Is (.int n) (.int n)
  | long {n : ℤ} : InInt64 n → Is (.long n) (.long n)
  | big (d : Dec) : Is (.dec d) (.big (decVal d))
  | double {t : JStr} {x : ℚ} : Numeral t x → Is (.dbl t) (.float x)
  | float {t : JStr} {x : ℚ} : Numeral t x → Is (.flt t) (.float x)
  | text {s : JStr} : Ordinary s → Is (.str s) (.text s)
  | truth (b : Bool) : Is (.bool b) (.truth b)
  | date {v : Value} {d : Date} : DateOf v d → Is v (.date d)
  | datetime {v : Value} {t : DateTime} : DateTimeOf v t → Is v (.datetime t)
  | version {s : JStr} {v : List ℕ} : VersionText s v → Is (.ver s) (.version v)

namespace Thing

/-- The number. -/
def number : Thing → Option ℚ
  | .int n => some n
  | .long n => some n
  | .big x => some x
  | .float x => some x
  | _ => none

/-- The whole number in an `Integer` or `Long`. -/
def whole : Thing → Option ℤ
  | .int n => some n
  | .long n => some n
  | _ => none

/-- A `Long`. -/
def isLong : Thing → Bool
  | .long _ => true
  | _ => false

/-- A `BigDecimal`, `Double` or `Float`. -/
def isDecimal : Thing → Bool
  | .big _ => true
  | .float _ => true
  | _ => false

/-- A whole number: in an `Integer` if it fits, otherwise in a `Long`. -/
def ofWhole (n : ℤ) : Thing := if InInt32 n then .int n else .long n

end Thing

/-- `t` is how a number computed with `BigDecimal`s is given back: in an `Integer` if it is whole (it has to fit
32 bits), otherwise in a `BigDecimal`. -/
inductive Rounded : ℚ → Thing → Prop
  | whole {n : ℤ} : InInt32 n → Rounded n (.int n)
  | fraction {x : ℚ} : (∀ n : ℤ, x ≠ n) → Rounded x (.big x)

/-- `t` is how a whole number computed with `double`s is given back. -/
inductive Boxed : ℤ → Thing → Prop
  | small {n : ℤ} : InInt32 n → Boxed n (.int n)
  | large {n : ℤ} : ¬ InInt32 n → |n| ≤ 2 ^ 53 → Boxed n (.big n)

/-- The arithmetic operators. -/
inductive Operates : ArithOp → Thing → Thing → Thing → Prop
  | add_whole {a b : Thing} {m n k : ℤ} : a.whole = some m → b.whole = some n → Wrapped64 k (m + n) →
      Operates .add a b (.ofWhole k)
  | mul_whole {a b : Thing} {m n k : ℤ} : a.whole = some m → b.whole = some n → Wrapped64 k (m * n) →
      Operates .mul a b (.ofWhole k)
  | sub_int {m n k : ℤ} : Wrapped32 k (m - n) → Operates .sub (.int m) (.int n) (.int k)
  | sub_long {a b : Thing} {m n k : ℤ} : a.whole = some m → b.whole = some n → (a.isLong || b.isLong) = true →
      Wrapped64 k (m - n) → Operates .sub a b (.long k)
  | add {a b : Thing} {x y : ℚ} : a.number = some x → b.number = some y → (a.isDecimal || b.isDecimal) = true →
      Operates .add a b (.big (x + y))
  | sub {a b : Thing} {x y : ℚ} : a.number = some x → b.number = some y → (a.isDecimal || b.isDecimal) = true →
      Operates .sub a b (.big (x - y))
  | mul {a b : Thing} {x y : ℚ} : a.number = some x → b.number = some y → (a.isDecimal || b.isDecimal) = true →
      Operates .mul a b (.big (x * y))
  | div {a b t : Thing} {x y : ℚ} : a.number = some x → b.number = some y → y ≠ 0 →
      Rounded ((truncate (x / y * 1000) : ℚ) / 1000) t → Operates .div a b t
  | mod_int {m n : ℤ} : n ≠ 0 → Operates .mod (.int m) (.int n) (.int (m.tmod n))
  | mod_long {a b : Thing} {m n : ℤ} : a.whole = some m → b.whole = some n → (a.isLong || b.isLong) = true → n ≠ 0 →
      Operates .mod a b (.long (m.tmod n))
  | exp {m : ℤ} {n : ℕ} : InInt32 (m ^ n) → Operates .exp (.int m) (.int n) (.int (m ^ n))
  | concat {s t : JStr} : Ordinary (s ++ t) → Operates .add (.text s) (.text t) (.text (s ++ t))

/-- Unary minus. -/
inductive Negates : Thing → Thing → Prop
  | int {n k : ℤ} : Wrapped32 k (-n) → Negates (.int n) (.int k)
  | long {n k : ℤ} : Wrapped64 k (-n) → Negates (.long n) (.long k)
  | big (x : ℚ) : Negates (.big x) (.big (-x))

/-- The things are numbers, namely `xs`. -/
def AreNumbers (ts : List Thing) (xs : List ℚ) : Prop := ts.map Thing.number = xs.map some

/-- The things are whole numbers, namely `ns`. -/
def AreWhole (ts : List Thing) (ns : List ℤ) : Prop := ts.map Thing.whole = ns.map some

/-- The functions, applied to their items (arguments, lists among them replaced by their elements). -/
inductive Applies (today : Date) : FuncType → List Thing → Thing → Prop
  | min {ts : List Thing} {xs : List ℚ} {x : ℚ} {t : Thing} : AreNumbers ts xs → 2 ≤ ts.length →
      ts.any Thing.isDecimal = true → Least x xs → Rounded x t → Applies today .min ts t
  | max {ts : List Thing} {xs : List ℚ} {x : ℚ} {t : Thing} : AreNumbers ts xs → 2 ≤ ts.length →
      ts.any Thing.isDecimal = true → Greatest x xs → Rounded x t → Applies today .max ts t
  | sum {ts : List Thing} {xs : List ℚ} {t : Thing} : AreNumbers ts xs → 2 ≤ ts.length →
      ts.any Thing.isDecimal = true → Rounded xs.sum t → Applies today .sum ts t
  | avg {f : FuncType} {ts : List Thing} {xs : List ℚ} {t : Thing} : f = .avg ∨ f = .mean → AreNumbers ts xs →
      2 ≤ ts.length → ts.any Thing.isDecimal = true →
      Rounded ((truncate (xs.sum / xs.length * 1000) : ℚ) / 1000) t → Applies today f ts t
  | min_whole {ts : List Thing} {ns : List ℤ} {n : ℤ} {t : Thing} : AreWhole ts ns → 2 ≤ ts.length → Least n ns →
      Boxed n t → Applies today .min ts t
  | max_whole {ts : List Thing} {ns : List ℤ} {n : ℤ} {t : Thing} : AreWhole ts ns → 2 ≤ ts.length → Greatest n ns →
      Boxed n t → Applies today .max ts t
  | sum_whole {ts : List Thing} {ns : List ℤ} {t : Thing} : AreWhole ts ns → 2 ≤ ts.length → Boxed ns.sum t →
      Applies today .sum ts t
  | avg_whole {f : FuncType} {ts : List Thing} {ns : List ℤ} {k : ℤ} {t : Thing} : f = .avg ∨ f = .mean →
      AreWhole ts ns → 2 ≤ ts.length → InInt64 ns.sum → (ns.sum : ℚ) / ns.length * 100 = k →
      Rounded ((ns.sum : ℚ) / ns.length) t → Applies today f ts t
  | median_odd {ts : List Thing} {xs ys : List ℚ} {k : ℕ} {y : ℚ} {t : Thing} : AreNumbers ts xs → 2 ≤ ts.length →
      ys.Perm xs → ys.Pairwise (· ≤ ·) → xs.length = 2 * k + 1 → ys[k]? = some y → Rounded y t →
      Applies today .median ts t
  | median_even {ts : List Thing} {xs ys : List ℚ} {k : ℕ} {y z : ℚ} {t : Thing} : AreNumbers ts xs →
      2 ≤ ts.length → ys.Perm xs → ys.Pairwise (· ≤ ·) → xs.length = 2 * (k + 1) → ys[k]? = some y →
      ys[k + 1]? = some z → Rounded ((truncate ((y + z) / 2 * 100) : ℚ) / 100) t → Applies today .median ts t
  | int {a : Thing} {x : ℚ} : a.number = some x → InInt32 (truncate x) →
      Applies today .int [a] (.int (truncate x))
  | len_text {s : JStr} : (utf16 s).length ≤ 2147483647 → Applies today .len [.text s] (.int (utf16 s).length)
  | len {ts : List Thing} : 2 ≤ ts.length → ts.length ≤ 2147483647 → Applies today .len ts (.int ts.length)
  | days_past {x : Date} {k : ℕ} : IsDay x → IsDay today → today = daysAfter k x → InInt64 k →
      Applies today .daysElapsed [.date x] (.long k)
  | days_future {x : Date} {k : ℕ} : IsDay x → IsDay today → x = daysAfter k today → InInt64 k →
      Applies today .daysElapsed [.date x] (.long (-k))

mutual
/-- What an arithmetic expression gives. -/
inductive Computes (today : Date) (d : Data) : Arith → Thing → Prop
  | field {f : JStr} {ks : List JStr} {v : Value} {t : Thing} : Names f ks → Reaches d ks v → Is v t →
      Computes today d (.field f) t
  | lit {l : Lit} {t : Thing} : Is l.value t → Computes today d (.lit l) t
  | group {e : Arith} {t : Thing} : Computes today d e t → Computes today d (.group e) t
  | op {o : ArithOp} {l r : Arith} {a b t : Thing} : Computes today d l a → Computes today d r b →
      Operates o a b t → Computes today d (.op o l r) t
  | neg {e : Arith} {a t : Thing} : Computes today d e a → Negates a t → Computes today d (.neg e) t
  | call {f : FuncType} {args : List Arith} {ts : List Thing} {t : Thing} : Collects today d args ts →
      Applies today f ts t → Computes today d (.call f args) t
/-- The items of a list of arguments: what each gives, or the elements of the list a field holds. -/
inductive Collects (today : Date) (d : Data) : List Arith → List Thing → Prop
  | nil : Collects today d [] []
  | one {e : Arith} {es : List Arith} {t : Thing} {ts : List Thing} : Computes today d e t →
      Collects today d es ts → Collects today d (e :: es) (t :: ts)
  | list {f : JStr} {ks : List JStr} {ws : List Value} {es : List Arith} {us ts : List Thing} : Names f ks →
      Reaches d ks (.list ws) → List.Forall₂ Is ws us → Collects today d es ts →
      Collects today d (.field f :: es) (us ++ ts)
end

/-- A number that a text stands for must fit the number it is ordered against: a whole number of 32 bits for an
`Integer`, of 64 bits for a `Long`. -/
def Thing.Fits (x : ℚ) : Thing → Prop
  | .int _ => ∃ n : ℤ, x = n ∧ InInt32 n
  | .long _ => ∃ n : ℤ, x = n ∧ InInt64 n
  | _ => True

/-- The comparison operators. -/
inductive Compares : CmpOp → Thing → Thing → Bool → Prop
  | numbers {o : CmpOp} {a b : Thing} {x y : ℚ} : a.number = some x → b.number = some y →
      Compares o a b (decide (Rel o x y))
  | texts {o : CmpOp} (s t : JStr) : Compares o (.text s) (.text t) (decide (Rel o (utf16 s) (utf16 t)))
  | same (x y : Bool) : Compares .eq (.truth x) (.truth y) (decide (x = y))
  | differ (x y : Bool) : Compares .ne (.truth x) (.truth y) (decide (x ≠ y))
  | dates {o : CmpOp} (x y : Date) : Compares o (.date x) (.date y) (decide (Rel o (dateKey x) (dateKey y)))
  | datetimes {o : CmpOp} (x y : DateTime) :
      Compares o (.datetime x) (.datetime y) (decide (Rel o (dateTimeKey x) (dateTimeKey y)))
  | versions {o : CmpOp} {v w : List ℕ} {b : Bool} : (b = true ↔ VersionRel o v w) →
      Compares o (.version v) (.version w) b
  | text_number {o : CmpOp} {s : JStr} {b : Thing} {x y : ℚ} : o ≠ .eq → o ≠ .ne → Numeral s x →
      b.number = some y → b.Fits x → Compares o (.text s) b (decide (Rel o x y))
  | number_text {o : CmpOp} {a : Thing} {t : JStr} {x y : ℚ} : o ≠ .eq → o ≠ .ne → a.number = some x →
      Numeral t y → a.Fits y → Compares o a (.text t) (decide (Rel o x y))

/-- The truth of a condition; `df` is the default field. AND and OR need their right operand only if the left one
does not decide. -/
inductive Holds (today : Date) (d : Data) (df : Option JStr) : Cond → Bool → Prop
  | cmp {o : CmpOp} {l r : Arith} {a b : Thing} {x : Bool} : Computes today d l a → Computes today d r b →
      Compares o a b x → Holds today d df (.cmp o l r) x
  | cmpD {o : CmpOp} {f : JStr} {r : Arith} {a b : Thing} {x : Bool} : df = some f →
      Computes today d (.field f) a → Computes today d r b → Compares o a b x → Holds today d df (.cmpD o r) x
  | absent {f : JStr} {eq : Bool} {ks : List JStr} : Names f ks → Missing d ks → Holds today d df (.isNull f eq) eq
  | present {f : JStr} {eq : Bool} {t : Thing} : Computes today d (.field f) t → t ≠ .text j!"null" →
      Holds today d df (.isNull f eq) (!eq)
  | null_text {f : JStr} {eq : Bool} : Computes today d (.field f) (.text j!"null") → Holds today d df (.isNull f eq) eq
  | range {f : JStr} {lo hi : Lit} {a : Thing} {x : ℚ} : Computes today d (.field f) a → a.number = some x →
      Holds today d df (.range f lo hi) (decide (Lit.number lo ≤ x ∧ x ≤ Lit.number hi))
  | isIn {f : JStr} {negated : Bool} {items : List Arith} {a : Thing} {bs : List Thing} {xs : List Bool} :
      Computes today d (.field f) a → Collects today d items bs → bs ≠ [] → List.Forall₂ (Compares .eq a) bs xs →
      Holds today d df (.isIn f negated items) (xs.any id != negated)
  | contains_all {f : JStr} {ks : List JStr} {ws : List Value} {items : List Arith} {ss ts : List JStr} :
      Names f ks → Reaches d ks (.list ws) → List.Forall₂ Is ws (ss.map .text) →
      Collects today d items (ts.map .text) →
      Holds today d df (.contains f .containsAll items) (decide (∀ t ∈ ts, t ∈ ss))
  | contains_any {f : JStr} {ks : List JStr} {ws : List Value} {items : List Arith} {ss ts : List JStr} :
      Names f ks → Reaches d ks (.list ws) → List.Forall₂ Is ws (ss.map .text) →
      Collects today d items (ts.map .text) →
      Holds today d df (.contains f .containsAny items) (decide (∃ t ∈ ts, t ∈ ss))
  | whole_all {f : JStr} {ks : List JStr} {ws : List Value} {items : List Arith} {as : List Thing} {ms ns : List ℤ} :
      Names f ks → Reaches d ks (.list ws) → List.Forall₂ Is ws as → AreWhole as ms →
      Collects today d items (ns.map .int) →
      Holds today d df (.contains f .containsAll items) (decide (∀ n ∈ ns, n ∈ ms))
  | whole_any {f : JStr} {ks : List JStr} {ws : List Value} {items : List Arith} {as : List Thing} {ms ns : List ℤ} :
      Names f ks → Reaches d ks (.list ws) → List.Forall₂ Is ws as → AreWhole as ms →
      Collects today d items (ns.map .int) →
      Holds today d df (.contains f .containsAny items) (decide (∃ n ∈ ns, n ∈ ms))
  | notField {f : JStr} {b : Bool} : Computes today d (.field f) (.truth b) → Holds today d df (.notField f) (!b)
  | not {c : Cond} {b : Bool} : Holds today d df c b → Holds today d df (.not c) (!b)
  | group {c : Cond} {b : Bool} : Holds today d df c b → Holds today d df (.group c) b
  | and {l r : Cond} {b : Bool} : Holds today d df l true → Holds today d df r b → Holds today d df (.conn true l r) b
  | and_false {l r : Cond} : Holds today d df l false → Holds today d df (.conn true l r) false
  | or {l r : Cond} {b : Bool} : Holds today d df l false → Holds today d df r b → Holds today d df (.conn false l r) b
  | or_true {l r : Cond} : Holds today d df l true → Holds today d df (.conn false l r) true

end BoolParser.Spec
