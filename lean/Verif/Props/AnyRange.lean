import Verif.Lemmas.NodeRange
import Verif.Lemmas.AnyText
import Verif.Props.AnyText
/-!
# C51 for texts outside the grammar
-/

namespace BoolParser
open Spec

/-- Literals are in range and functions satisfy `Q`; bounds of ranges are left out. -/
def VRange (Q : FuncType → Prop) : Vocab where
  field _ _ := True
  lit _ v _ := InRange v
  bound _ _ := True
  word _ v _ := InRange v
  lone v _ := InRange v
  fn := Q
  op _ := True

variable {Q : FuncType → Prop}

mutual
theorem evalArith_inRange {env : Env} {d : Data} (ht : DateInRange env.today) (hd : EntriesInRange d) :
    {n n' : Node} → NodeRel (VRange Q) n n' → LensFit env d n → Yields InRange (evalArith env d n)
  | .arith op l r, _, h, hl => by
    rw [evalArith]
    cases h with
    | arith _ h1 _ =>
      exact yields_bind (evalArith_inRange ht hd h1 fun vs hv => hl vs (.left hv)) fun a ha =>
        yields_bind' fun b => arithBinary_range _ _ _ _ ha
  | .neg l, _, h, hl => by
    rw [evalArith]
    exact yields_bind' fun a => arithNegate_range _ _
  | .func f items, _, h, hl => by
    rw [evalArith]
    cases h with
    | func _ hs =>
      have ih := evalArithAll_inRange ht hd hs fun m hm vs hv => hl vs (.arg hm hv)
      intro v hv
      cases e : evalArithAll env d items with
      | error x => rw [e] at hv; cases hv
      | ok vs =>
        rw [e] at hv
        exact callFn_range ht f (flattenItems_range (ih vs e)) (by
          rintro rfl
          exact lenOk_of (hl vs (.here e))) v hv
  | .unary _ v, _, h, _ => by
    rw [evalArith]
    cases h with
    | unary h => exact yields_ok h
  | .field f, _, _, _ => by rw [evalArith]; exact requireField_range f hd
  | .cmp _ _ _ _, _, _, _ | .range _ _ _ _ _, _, _, _ | .inn _ _, _, _, _ | .array _ _ _, _, _, _ | .and_ _ _, _, _, _
  | .or_ _ _, _, _, _ | .not_ _, _, _, _ => by simp only [evalArith]; exact yields_err _
theorem evalArithAll_inRange {env : Env} {d : Data} (ht : DateInRange env.today) (hd : EntriesInRange d) :
    {ns ns' : List Node} → NodesRel (VRange Q) ns ns' → (∀ n ∈ ns, LensFit env d n) →
    Yields (fun vs => ∀ v ∈ vs, InRange v) (evalArithAll env d ns)
  | [], _, _, _ => by rw [evalArithAll]; exact yields_ok (by intro v hv; cases hv)
  | n :: ns, _, h, hl => by
    rw [evalArithAll]
    cases h with
    | cons h1 h2 =>
      refine yields_bind (evalArith_inRange ht hd h1 (hl n (by simp))) fun v hv =>
        yields_bind (evalArithAll_inRange ht hd h2 fun m hm => hl m (by simp [hm])) fun vs hvs => yields_ok ?_
      intro w hw
      rcases List.mem_cons.mp hw with rfl | hw
      · exact hv
      · exact hvs w hw
end

theorem nodesRel_mem {V : Vocab} : {ns ns' : List Node} → NodesRel V ns ns' → ∀ n ∈ ns, ∃ n', NodeRel V n n'
  | _, _, .nil, n, h => by cases h
  | _, _, .cons h hs, n, hn => by
    rcases List.mem_cons.mp hn with rfl | hn
    · exact ⟨_, h⟩
    · exact nodesRel_mem hs n hn

theorem noLen_fits_rel {env : Env} {d : Data} {n n' : Node} (h : NodeRel (VRange fun f => f ≠ .len) n n') : LensFit env d n := by
  intro vs hv
  induction hv generalizing n' with
  | here _ => cases h with | func hf _ => exact absurd rfl hf
  | arg hm _ ih => cases h with | func _ hs => exact (nodesRel_mem hs _ hm).elim fun _ h => ih h
  | left _ ih => cases h with | arith _ h _ => exact ih h
  | right _ ih => cases h with | arith _ _ h => exact ih h
  | neg _ ih => cases h with | neg h => exact ih h

theorem tok_range {t : Token} (h : ∀ f, t.kind = .fn f → Q f) : TokSelf (VRange Q) t where
  field _ := trivial
  lit v hv := convertValue_range _ _ v hv
  word v hv := convertValue_range _ _ v hv
  lone v hv := convertValue_range _ _ v hv
  fn f hf := h f hf
  op _ _ := trivial

theorem parseAny_range {s : JStr} {df : Option JStr} {n : Node} (h : ∀ t ∈ lex s, ∀ f, t.kind = .fn f → Q f)
    (hp : parseAny s df = .ok n) : NodeRel (VRange Q) n n := by
  rcases parseAny_self (V := VRange Q) ⟨fun _ => trivial, fun _ _ => trivial⟩ (tok_range (by intro f hf; cases hf))
    (fun t ht => tok_range (h t ht)) hp with hr | ⟨v, v', rfl, _, hr⟩
  · exact hr
  · exact .unary hr

/-- **C51**, any text at all, well-formed or not: the result of an arithmetic evaluation is in range, if the data and today's
date are and LEN counts nothing larger than Java can hold. -/
theorem C51_any {env : Env} {s : JStr} {d : Data} {v : Value} (ht : DateInRange env.today) (hd : EntriesInRange d)
    (hl : ∀ n, parseAny s none = .ok n → LensFit env d n) (h : evaluateArithAny env s d = .ok v) : InRange v := by
  obtain ⟨n, hn, h⟩ := bind_ok_inv h
  exact evalArith_inRange (Q := fun _ => True) ht hd (parseAny_range (fun _ _ _ _ => trivial) hn) (hl n hn) v h

/-- **C51**, any text at all without LEN. -/
theorem C51_any_without_len {env : Env} {s : JStr} {ts : List JStr} (hc : Cut s ts) (hn : ∀ t ∈ ts, ¬ Classified t (.fn .len))
    {d : Data} {v : Value} (ht : DateInRange env.today) (hd : EntriesInRange d) (h : evaluateArithAny env s d = .ok v) :
    InRange v := by
  refine C51_any ht hd (fun n hp => noLen_fits_rel (parseAny_range ?_ hp)) h
  rintro t hm f hk rfl
  obtain ⟨h1, h2⟩ := cut_texts hc hm
  exact hn _ h1 (hk ▸ h2)

-- `a + 1 )` with the largest Integer
example (env : Env) (ht : DateInRange env.today) {v : Value}
    (h : evaluateArithAny env j!"a + 1 )" [(['a'], .int 2147483647)] = .ok v) : InRange v :=
  C51_any_without_len (ts := [['a'], j!"+", ['1'], j!")"]) (cut_of (by krfl)) (by
    intro t ht hl
    have hm : (t, TK.fn .len) ∈ tokenTable := by cases hl with | table h => exact h
    clear hl
    revert t
    decide +kernel) ht
    (by simp [EntriesInRange, InRange, InInt32]) h

example (env : Env) : evaluateArithAny env j!"a + 1 )" [(['a'], .int 2147483647)] = .ok (.long 2147483648) := by krfl

end BoolParser
