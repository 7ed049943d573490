import Verif.Spec.ResultTypes
import Verif.Lemmas.Local
import Verif.Lemmas.Functions
import Verif.Props.Functions
/-!
# The Java types of results
-/

namespace BoolParser
open Spec

theorem castDecimal_gives {d : Dec} {v : Value} (h : castDecimal d = .ok v) : Fraction v := by
  unfold castDecimal at h
  split at h
  · obtain ⟨n, -, h⟩ := bind_ok_inv h
    injection h with h; rw [← h]; exact .int n
  · rename_i hi
    injection h with h; rw [← h]
    exact .big fun n hn => hi ((isIntegral_iff d).mpr ⟨n, hn⟩)

theorem castLong_gives (n : ℤ) : Sized (castLong n) := by
  unfold castLong
  split
  · exact .int n
  · rename_i h; exact .long h

theorem castWhole_gives (n : ℤ) : Short (castWhole n) := by
  unfold castWhole
  split
  · exact .int n
  · rename_i h
    refine .big fun k hk e => h ?_
    have : (n : ℚ) = k := by simpa [decVal] using e
    rw [Int.cast_inj.mp this]; exact hk

theorem castDouble_gives {x : Dbl} {v : Value} (h : castDouble x = .ok v) : Short v := by
  unfold castDouble at h
  split at h
  · cases h
  · cases h
  · rename_i m e
    injection h with h
    rw [← h]
    split
    · exact .int _
    · rename_i hc
      refine .big fun n hn e => hc ?_
      have hi := (isIntegral_iff _).mpr ⟨n, e⟩
      refine ⟨hi, ?_⟩
      have := trunc_integral hi
      rw [e] at this
      rw [Int.cast_inj.mp this]; exact hn

theorem kind_decimal (v : Value) : (getDataType v == .decimal) = IsDecimal v := by
  cases v <;> first | rfl | skip
  rename_i s
  simp only [getDataType]
  split
  · rfl
  · split <;> rfl

theorem kind_long (v : Value) : (getDataType v == .long) = IsLong v := by
  cases v <;> first | rfl | skip
  rename_i s
  simp only [getDataType]
  split
  · rfl
  · split <;> rfl

theorem kind_integer {v : Value} (h : getDataType v = .integer) : ∃ n, v = .int n := by
  cases v with
  | int n => exact ⟨n, rfl⟩
  | str s =>
    simp only [getDataType] at h
    split at h
    · cases h
    · split at h <;> cases h
  | _ => cases h

theorem stringType_number {v : Value} (h : isStringType (getDataType v) = true) : IsNumber v = false := by
  cases v <;> first | rfl | cases h

theorem number_add {v : Value} (h : ArithOp.add.allows (getDataType v) = true) (hs : isStringType (getDataType v) = false) :
    IsNumber v = true := by
  apply numeric_isNumber
  simp only [ArithOp.allows, hs, Bool.or_false, Bool.or_eq_true, beq_iff_eq] at h
  rcases h with (h | h) | h
  · exact .inl h
  · exact .inr (.inl h)
  · exact .inr (.inr h)

/-- What a successful operation went through. -/
theorem arithBinary_inv {env : Env} {o : ArithOp} {a b v : Value} {s t : DataType} (h : arithBinary env o a s b t = .ok v) :
    o.allows s = true ∧ o.allows t = true ∧ evalArithOp env o a s b t = .ok v := by
  rw [arithBinary_eq] at h
  cases h1 : o.allows s with
  | false => rw [h1] at h; cases h
  | true =>
    rw [h1, Bool.not_true, if_neg (by decide)] at h
    obtain ⟨x, -, h⟩ := bind_ok_inv h
    cases x with
    | false => cases h
    | true =>
      rw [Bool.not_true, if_neg (by decide)] at h
      cases h2 : o.allows t with
      | false => rw [h2] at h; cases h
      | true =>
        rw [h2, Bool.not_true, if_neg (by decide)] at h
        obtain ⟨y, -, h⟩ := bind_ok_inv h
        cases y with
        | false => cases h
        | true => exact ⟨rfl, rfl, h⟩

theorem operator_gives {env : Env} {o : ArithOp} {a b v : Value} (h : arithBinary env o a (getDataType a) b (getDataType b) = .ok v) :
    OperatorGives o a b v := by
  obtain ⟨h1, h2, h⟩ := arithBinary_inv h
  cases o with
  | add =>
    simp only [evalArithOp] at h
    simp only [OperatorGives]
    cases hs : isStringType (getDataType a) || isStringType (getDataType b) with
    | true =>
      rw [hs, if_pos rfl] at h
      have : (IsNumber a && IsNumber b) = false := by
        rcases Bool.or_eq_true _ _ ▸ hs with hs | hs
        · rw [stringType_number hs]; rfl
        · rw [stringType_number hs, Bool.and_false]
      rw [this]
      injection h with h
      exact ⟨_, h.symm⟩
    | false =>
      rw [hs, if_neg (by decide), kind_decimal, kind_decimal] at h
      rw [Bool.or_eq_false_iff] at hs
      rw [number_add h1 hs.1, number_add h2 hs.2, Bool.and_self, if_pos rfl]
      split at h
      · rename_i hd; rw [if_pos hd]
        obtain ⟨x, -, h⟩ := bind_ok_inv h
        obtain ⟨y, -, h⟩ := bind_ok_inv h
        injection h with h; exact ⟨_, h.symm⟩
      · rename_i hd; rw [if_neg hd]
        obtain ⟨x, -, h⟩ := bind_ok_inv h
        obtain ⟨y, -, h⟩ := bind_ok_inv h
        injection h with h; rw [← h]; exact castLong_gives _
  | sub =>
    simp only [evalArithOp, kind_decimal, kind_long] at h
    simp only [OperatorGives]
    split at h
    · rename_i hd; rw [if_pos hd]
      obtain ⟨x, -, h⟩ := bind_ok_inv h
      obtain ⟨y, -, h⟩ := bind_ok_inv h
      injection h with h; exact ⟨_, h.symm⟩
    · rename_i hd; rw [if_neg hd]
      split at h
      · rename_i hl; rw [if_pos hl]
        obtain ⟨x, -, h⟩ := bind_ok_inv h
        obtain ⟨y, -, h⟩ := bind_ok_inv h
        injection h with h; rw [← h]; rfl
      · rename_i hl; rw [if_neg hl]
        obtain ⟨x, -, h⟩ := bind_ok_inv h
        obtain ⟨y, -, h⟩ := bind_ok_inv h
        injection h with h; exact ⟨_, h.symm⟩
  | mul =>
    simp only [evalArithOp, kind_decimal] at h
    simp only [OperatorGives]
    split at h
    · rename_i hd; rw [if_pos hd]
      obtain ⟨x, -, h⟩ := bind_ok_inv h
      obtain ⟨y, -, h⟩ := bind_ok_inv h
      injection h with h; exact ⟨_, h.symm⟩
    · rename_i hd; rw [if_neg hd]
      obtain ⟨x, -, h⟩ := bind_ok_inv h
      obtain ⟨y, -, h⟩ := bind_ok_inv h
      injection h with h; rw [← h]; exact castLong_gives _
  | div =>
    obtain ⟨x, -, h⟩ := bind_ok_inv h
    obtain ⟨y, -, h⟩ := bind_ok_inv h
    obtain ⟨q, -, h⟩ := bind_ok_inv h
    exact castDecimal_gives h
  | mod =>
    simp only [evalArithOp, kind_long] at h
    simp only [OperatorGives]
    split at h
    · rename_i hd; rw [if_pos hd]
      obtain ⟨x, -, h⟩ := bind_ok_inv h
      obtain ⟨y, -, h⟩ := bind_ok_inv h
      by_cases hy : y = 0
      · rw [if_pos hy] at h; cases h
      · rw [if_neg hy] at h; injection h with h; rw [← h]; rfl
    · rename_i hd; rw [if_neg hd]
      obtain ⟨x, -, h⟩ := bind_ok_inv h
      obtain ⟨y, -, h⟩ := bind_ok_inv h
      by_cases hy : y = 0
      · rw [if_pos hy] at h; cases h
      · rw [if_neg hy] at h; injection h with h; exact ⟨_, h.symm⟩
  | exp =>
    simp only [evalArithOp] at h
    split at h <;>
    · obtain ⟨x, -, h⟩ := bind_ok_inv h
      obtain ⟨y, -, h⟩ := bind_ok_inv h
      exact castDouble_gives h

theorem minus_gives {a v : Value} (h : arithNegate a (getDataType a) = .ok v) :
    (IsInteger a ∧ IsInteger v) ∨ (IsLong a = true ∧ IsLong v = true) ∨ (IsBig a ∧ IsBig v) := by
  rw [arithNegate_eq] at h
  split at h
  · cases h
  · obtain ⟨x, -, h⟩ := bind_ok_inv h
    split at h
    · cases h
    · unfold evalNeg at h
      split at h
      · injection h with h; exact .inr (.inr ⟨⟨_, rfl⟩, _, h.symm⟩)
      · cases h
      · injection h with h; exact .inr (.inl ⟨rfl, by rw [← h]; rfl⟩)
      · cases h
      · injection h with h; exact .inl ⟨⟨_, rfl⟩, _, h.symm⟩
      · cases h

theorem any_decimal (ws : List Value) : anyType .decimal (typed ws) = ws.any IsDecimal := by
  induction ws with
  | nil => rfl
  | cons w ws ih =>
    show (getDataType w == .decimal || anyType .decimal (typed ws)) = _
    rw [kind_decimal, ih]; rfl

theorem callFn_inv {env : Env} {f : FuncType} {items : List Typed} {v : Value} (h : callFn env f items = .ok v) :
    items.all (fun x => f.allows x.2) = true ∧ evalFn env f items = .ok v := by
  rw [callFn_eq] at h
  by_cases he : items.isEmpty = true
  · rw [if_pos he] at h; cases h
  · rw [if_neg he] at h
    cases hc : (if 1 < items.length then f.allowsMany else f.allowsOne) with
    | false => rw [hc] at h; cases h
    | true =>
      rw [hc, Bool.not_true, if_neg (by decide)] at h
      cases hall : items.all (fun x => f.allows x.2) with
      | false => rw [hall] at h; cases h
      | true =>
        rw [hall, Bool.not_true, if_neg (by decide)] at h
        obtain ⟨x, -, h⟩ := bind_ok_inv h
        exact ⟨rfl, h⟩

theorem function_gives {env : Env} {f : FuncType} {ws : List Value} {v : Value} (h : callFn env f (typed ws) = .ok v) :
    FunctionGives f ws v := by
  obtain ⟨hall, h⟩ := callFn_inv h
  have havg : avgFn (typed ws) = .ok v → Fraction v := by
    intro h
    unfold avgFn at h
    split at h <;>
    · obtain ⟨x, -, h⟩ := bind_ok_inv h
      obtain ⟨y, -, h⟩ := bind_ok_inv h
      exact castDecimal_gives h
  cases f with
  | min =>
    simp only [evalFn, minFn, any_decimal] at h
    simp only [FunctionGives]
    split at h
    · rename_i hd; rw [if_pos hd]
      obtain ⟨x, -, h⟩ := bind_ok_inv h
      cases x with
      | nil => cases h
      | cons _ _ => exact castDecimal_gives h
    · rename_i hd; rw [if_neg hd]
      split at h <;>
      · obtain ⟨x, -, h⟩ := bind_ok_inv h
        cases x with
        | nil => cases h
        | cons _ _ => injection h with h; rw [← h]; exact castWhole_gives _
  | max =>
    simp only [evalFn, maxFn, any_decimal] at h
    simp only [FunctionGives]
    split at h
    · rename_i hd; rw [if_pos hd]
      obtain ⟨x, -, h⟩ := bind_ok_inv h
      cases x with
      | nil => cases h
      | cons _ _ => exact castDecimal_gives h
    · rename_i hd; rw [if_neg hd]
      split at h <;>
      · obtain ⟨x, -, h⟩ := bind_ok_inv h
        cases x with
        | nil => cases h
        | cons _ _ => injection h with h; rw [← h]; exact castWhole_gives _
  | sum =>
    simp only [evalFn, sumFn, any_decimal] at h
    simp only [FunctionGives]
    split at h
    · rename_i hd; rw [if_pos hd]
      obtain ⟨x, -, h⟩ := bind_ok_inv h
      exact castDecimal_gives h
    · rename_i hd; rw [if_neg hd]
      obtain ⟨x, -, h⟩ := bind_ok_inv h
      injection h with h; rw [← h]; exact castWhole_gives _
  | avg => exact havg h
  | mean => exact havg h
  | median =>
    obtain ⟨x, -, h⟩ := bind_ok_inv h
    simp only at h
    split at h
    · obtain ⟨_, -, h⟩ := bind_ok_inv h
      obtain ⟨_, -, h⟩ := bind_ok_inv h
      obtain ⟨_, -, h⟩ := bind_ok_inv h
      exact castDecimal_gives h
    · obtain ⟨_, -, h⟩ := bind_ok_inv h
      exact castDecimal_gives h
  | mode =>
    have hm : (typed ws).map Prod.fst = ws := by
      rw [typed, List.map_map]; exact List.map_id _
    cases ws with
    | nil => cases h
    | cons w ws =>
      change (match modeGo ((typed (w :: ws)).map Prod.fst) [] 1 w with
        | .dec d => castDecimal d
        | .long n => .ok (castLong n)
        | v => .ok v) = .ok v at h
      rw [hm] at h
      have hmem : modeGo (w :: ws) [] 1 w ∈ w :: ws := by
        rcases modeGo_mem (w :: ws) [] 1 w with e | e
        · rw [e]; exact .head _
        · exact e
      have hnum : IsNumber (modeGo (w :: ws) [] 1 w) = true := by
        have := List.all_eq_true.mp hall (_, getDataType _) (List.mem_map.mpr ⟨_, hmem, rfl⟩)
        simp only [FuncType.allows, Bool.or_eq_true, beq_iff_eq] at this
        apply numeric_isNumber
        rcases this with (h | h) | h
        · exact .inl h
        · exact .inr (.inl h)
        · exact .inr (.inr h)
      revert h hmem hnum
      generalize modeGo (w :: ws) [] 1 w = m
      intro h hmem hnum
      cases m with
      | dec d => exact .inr (.inl (castDecimal_gives h))
      | long n => injection h with h; rw [← h]; exact .inl (castLong_gives n)
      | int n => injection h with h; rw [← h]; exact .inl (.int n)
      | dbl t => injection h with h; rw [← h]; exact .inr (.inr ⟨hmem, t, .inl rfl⟩)
      | flt t => injection h with h; rw [← h]; exact .inr (.inr ⟨hmem, t, .inr rfl⟩)
      | _ => cases hnum
  | int =>
    cases ws with
    | nil => cases h
    | cons w ws =>
      change (if getDataType w == .decimal then getOpt (asDec w) >>= fun d => .ok (.int d.intValue)
        else if getDataType w == .long then
          match w with
          | .long n => .ok (.int (wrap32 n))
          | _ => .error .classCast
        else .ok w) = .ok v at h
      split at h
      · obtain ⟨x, -, h⟩ := bind_ok_inv h
        injection h with h; exact ⟨_, h.symm⟩
      · rename_i hd
        split at h
        · split at h
          · injection h with h; exact ⟨_, h.symm⟩
          · cases h
        · rename_i hl
          injection h with h
          rw [← h]
          have := List.all_eq_true.mp hall (_, getDataType _) (List.mem_map.mpr ⟨w, .head _, rfl⟩)
          simp only [FuncType.allows, Bool.or_eq_true] at this
          rcases this with (h | h) | h
          · exact kind_integer (by simpa using h)
          · exact absurd h hl
          · exact absurd h hd
  | len =>
    simp only [evalFn, lenFn] at h
    split at h <;> (injection h with h; exact ⟨_, h.symm⟩)
  | daysElapsed =>
    simp only [evalFn, daysFn] at h
    split at h
    · injection h with h; rw [← h]; rfl
    · split at h
      · injection h with h; rw [← h]; rfl
      · cases h
    · cases h
    · cases h

end BoolParser
