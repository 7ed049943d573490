import Verif.Model.Heap
/-!
# Evaluation writes only to objects it has created itself
-/

namespace BoolParser
open HM

/-- If the objects `x` creates get addresses in `S`, it writes to addresses in `S` only, and its value
satisfies `P`; whatever it reads. -/
def Fr {α : Type} (S : Addr → Prop) (x : HM α) (P : α → Prop) : Prop :=
  match x with
  | .done o => ∀ a, o = .ok a → P a
  | .readThen _ k => ∀ o, Fr S (k o) P
  | .writeThen a _ k => S a ∧ Fr S k P
  | .allocThen _ k => ∀ a, S a → Fr S (k a) P

namespace Fr

variable {α β : Type} {S : Addr → Prop}

theorem bind' {f : α → HM β} {P : α → Prop} {Q : β → Prop} (hf : ∀ a, P a → Fr S (f a) Q) :
    ∀ {x : HM α}, Fr S x P → Fr S (x >>= f) Q
  | .done (.ok a), hx => hf a (hx a rfl)
  | .done (.thrown _), _ => fun _ e => by cases e
  | .done .stuck, _ => fun _ e => by cases e
  | .readThen _ k, hx => fun o => bind' (x := k o) hf (hx o)
  | .writeThen _ _ k, hx => ⟨hx.1, bind' (x := k) hf hx.2⟩
  | .allocThen _ k, hx => fun a ha => bind' (x := k a) hf (hx a ha)

theorem bind {x : HM α} {f : α → HM β} {P : α → Prop} {Q : β → Prop} (hx : Fr S x P)
    (hf : ∀ a, P a → Fr S (f a) Q) : Fr S (x >>= f) Q := bind' hf hx

theorem pure {a : α} {P : α → Prop} (h : P a) : Fr S (pure a : HM α) P :=
  fun _ e => by cases e; exact h

theorem raise {e : Exn} {P : α → Prop} : Fr S (raise e : HM α) P := fun _ e => by cases e

theorem stuck {P : α → Prop} : Fr S (HM.stuck : HM α) P := fun _ e => by cases e

theorem lift {r : Result α} : Fr S (HM.lift r) (fun _ => True) := by
  cases r <;> exact fun _ _ => trivial

theorem read {a : Addr} : Fr S (HM.read a) (fun _ => True) := fun _ _ _ => trivial

theorem write {a : Addr} {o : Obj} (h : S a) : Fr S (HM.write a o) (fun _ => True) := ⟨h, fun _ _ => trivial⟩

theorem alloc {o : Obj} : Fr S (HM.alloc o) S := fun _ ha _ e => by cases e; exact ha

theorem forEach {body : α → HM Unit} (h : ∀ x, Fr S (body x) (fun _ => True)) :
    ∀ xs, Fr S (HM.forEach body xs) (fun _ => True)
  | [] => pure trivial
  | x :: xs => bind' (fun _ _ => forEach h xs) (h x)

theorem each {f : α → HM β} (h : ∀ x, Fr S (f x) (fun _ => True)) : ∀ xs, Fr S (HM.each f xs) (fun _ => True)
  | [] => pure trivial
  | x :: xs => bind' (fun _ _ => bind' (fun _ _ => pure trivial) (each h xs)) (h x)

theorem eachEntry {f : α → HM β} (h : ∀ x, Fr S (f x) (fun _ => True)) :
    ∀ xs, Fr S (HM.eachEntry f xs) (fun _ => True)
  | [] => pure trivial
  | (_, x) :: xs => bind' (fun _ _ => bind' (fun _ _ => pure trivial) (eachEntry h xs)) (h x)

theorem deep : ∀ {m : Nat} {r : Ref}, Fr S (deep m r) (fun _ => True)
  | m, .imm v => by cases m <;> exact pure trivial
  | 0, .ptr a => stuck
  | m + 1, .ptr a => by
    rw [BoolParser.deep]
    refine bind' (fun o _ => ?_) read
    split
    · exact bind' (fun _ _ => pure trivial) (each (fun _ => deep) _)
    · exact bind' (fun _ _ => pure trivial) (each (fun _ => deep) _)
    · exact bind' (fun _ _ => pure trivial) (each (fun _ => deep) _)
    · exact bind' (fun _ _ => pure trivial) (eachEntry (fun _ => deep) _)
    · exact stuck

theorem leaves {n : Nat} {P : α → Prop} : ∀ {x : HM α}, Fr (n ≤ ·) x P → ∀ H : Heap, n ≤ H.length →
    n ≤ (x H).2.length ∧ (x H).2.take n = H.take n
  | .done _, _, _, hn => ⟨hn, rfl⟩
  | .readThen a k, h, H, hn => by
    rw [HM.run]
    split
    · exact leaves (h _) H hn
    · exact ⟨hn, rfl⟩
  | .writeThen a o k, h, H, hn => by
    rw [HM.run]
    have := leaves h.2 (H.set a o) (by simpa using hn)
    rwa [List.take_set_of_le h.1] at this
  | .allocThen o k, h, H, hn => by
    rw [HM.run]
    have := leaves (h H.length hn) (H ++ [o]) (by simp; omega)
    rwa [List.take_append_of_le_length hn] at this

/-- The objects that were there are still there, unchanged. -/
theorem prefix_of {x : HM α} {P : α → Prop} (h : ∀ S, Fr S x P) (H : Heap) : ∃ extra, (x H).2 = H ++ extra := by
  obtain ⟨_, h2⟩ := leaves (h (H.length ≤ ·)) H (Nat.le_refl _)
  refine ⟨(x H).2.drop H.length, ?_⟩
  rw [List.take_length] at h2
  conv => lhs; rw [← List.take_append_drop H.length (x H).2, h2]

end Fr

variable {S : Addr → Prop}

theorem readNode_fr {a : Addr} : Fr S (readNode a) (fun _ => True) := by
  refine Fr.bind Fr.read (fun o _ => ?_)
  split
  · exact Fr.pure trivial
  · exact Fr.stuck

theorem readNodes_fr {a : Addr} : Fr S (readNodes a) (fun _ => True) := by
  refine Fr.bind Fr.read (fun o _ => ?_)
  split
  · exact Fr.pure trivial
  · exact Fr.stuck

theorem addRef_fr {a : Addr} {r : Ref} (h : S a) : Fr S (addRef a r) (fun _ => True) := by
  refine Fr.bind Fr.read (fun o _ => ?_)
  split
  · exact Fr.write h
  · exact Fr.stuck

theorem addEvald_fr {a e : Addr} (h : S a) : Fr S (addEvald a e) (fun _ => True) := by
  refine Fr.bind Fr.read (fun o _ => ?_)
  split
  · exact Fr.write h
  · exact Fr.stuck

theorem walkH_fr : ∀ (ks : List JStr) (a : Addr), Fr S (walkH ks a) (fun _ => True)
  | [], _ => Fr.raise
  | [k], a => by
    refine Fr.bind Fr.read (fun o _ => ?_)
    split
    · split <;> exact Fr.pure trivial
    · exact Fr.stuck
  | k :: k2 :: ks, a => by
    refine Fr.bind Fr.read (fun o _ => ?_)
    split
    · split
      · refine Fr.bind Fr.read (fun o _ => ?_)
        split
        · exact walkH_fr (k2 :: ks) _
        · exact Fr.pure trivial
      · exact Fr.bind Fr.lift (fun _ _ => Fr.pure trivial)
      · exact Fr.pure trivial
    · exact Fr.stuck

theorem lookupFieldH_fr {d : Addr} {f : Option JStr} : Fr S (lookupFieldH d f) (fun _ => True) := by
  unfold lookupFieldH
  split
  · exact Fr.raise
  · exact walkH_fr _ _

theorem requireFieldH_fr {d : Addr} {f : Option JStr} : Fr S (requireFieldH d f) (fun _ => True) := by
  refine Fr.bind lookupFieldH_fr (fun o _ => ?_)
  split
  · exact Fr.pure trivial
  · exact Fr.raise

theorem optOfH_fr {r : Ref} : Fr S (optOfH r) (fun _ => True) := by
  unfold optOfH
  split
  · exact Fr.raise
  · exact Fr.pure trivial

theorem elementsH_fr {r : Ref} : Fr S (elementsH r) (fun _ => True) := by
  unfold elementsH
  split
  · exact Fr.pure trivial
  · exact Fr.pure trivial
  · exact Fr.pure trivial
  · refine Fr.bind Fr.read (fun o _ => ?_)
    split <;> exact Fr.pure trivial

theorem addFlat_fr {m : Nat} {out : Addr} {r : Ref} (h : S out) : Fr S (addFlat m out r) (fun _ => True) :=
  Fr.bind Fr.deep (fun _ _ => Fr.bind Fr.alloc (fun _ _ => addEvald_fr h))

theorem flatOne_fr {m : Nat} {out : Addr} {r : Ref} (h : S out) : Fr S (flatOne m out r) (fun _ => True) := by
  refine Fr.bind elementsH_fr (fun o _ => ?_)
  split
  · exact Fr.forEach (fun _ => addFlat_fr h) _
  · exact addFlat_fr h

theorem mapToEvaluatedNodesH_fr {m : Nat} {a : Addr} : Fr S (mapToEvaluatedNodesH m a) (fun _ => True) := by
  refine Fr.bind Fr.alloc (fun out hout => Fr.bind Fr.read (fun o _ => ?_))
  split
  · exact Fr.bind (Fr.forEach (fun r => flatOne_fr hout) _) (fun _ _ => Fr.pure trivial)
  · exact Fr.stuck

theorem typedH_fr {m : Nat} : ∀ es : List Addr, Fr S (typedH m es) (fun _ => True)
  | [] => Fr.pure trivial
  | e :: es => by
    refine Fr.bind Fr.read (fun o _ => ?_)
    split
    · exact Fr.bind Fr.deep (fun _ _ => Fr.bind (typedH_fr es) (fun _ _ => Fr.pure trivial))
    · exact Fr.stuck

theorem readTyped_fr {m : Nat} {a : Addr} : Fr S (readTyped m a) (fun _ => True) := by
  refine Fr.bind Fr.read (fun o _ => ?_)
  split
  · exact typedH_fr _
  · exact Fr.stuck

theorem sortH_fr {a : Addr} (h : S a) : Fr S (sortH a) (fun _ => True) := by
  refine Fr.bind Fr.read (fun o _ => ?_)
  split
  · exact Fr.write h
  · exact Fr.stuck

theorem getAtH_fr {a : Addr} {i : Nat} : Fr S (getAtH a i) (fun _ => True) := by
  refine Fr.bind Fr.read (fun o _ => ?_)
  split
  · exact Fr.lift
  · exact Fr.stuck

theorem medianH_fr {items : List Typed} : Fr S (medianH items) (fun _ => True) := by
  refine Fr.bind Fr.lift (fun ds _ => Fr.bind Fr.alloc (fun a ha => Fr.bind (sortH_fr ha) (fun _ _ => ?_)))
  dsimp only
  split
  · exact Fr.bind getAtH_fr (fun _ _ => Fr.bind getAtH_fr (fun _ _ => Fr.bind Fr.lift (fun _ _ => Fr.lift)))
  · exact Fr.bind getAtH_fr (fun _ _ => Fr.lift)

theorem modeLoopH_fr {hm : Addr} (h : S hm) :
    ∀ (vs : List Value) (mx : Nat) (temp : Value), Fr S (modeLoopH hm vs mx temp) (fun _ => True)
  | [], _, _ => Fr.pure trivial
  | v :: vs, mx, temp => by
    refine Fr.bind Fr.read (fun o _ => ?_)
    split
    · split
      · refine Fr.bind (Fr.write h) (fun _ _ => ?_)
        split
        · exact modeLoopH_fr h _ _ _
        · exact modeLoopH_fr h _ _ _
      · exact Fr.bind (Fr.write h) (fun _ _ => modeLoopH_fr h _ _ _)
    · exact Fr.stuck

theorem modeH_fr {items : List Typed} : Fr S (modeH items) (fun _ => True) := by
  refine Fr.bind Fr.alloc (fun hm h => ?_)
  split
  · exact Fr.raise
  · refine Fr.bind (modeLoopH_fr h _ _ _) (fun t _ => ?_)
    split
    · exact Fr.lift
    · exact Fr.pure trivial
    · exact Fr.pure trivial

theorem callFnH_fr {env : Env} {m : Nat} {f : FuncType} {a : Addr} : Fr S (callFnH env m f a) (fun _ => True) := by
  refine Fr.bind readTyped_fr (fun items _ => Fr.bind Fr.lift (fun _ _ => ?_))
  split
  · exact medianH_fr
  · exact modeH_fr
  · exact Fr.lift

theorem evalArithH_fr {env : Env} {m : Nat} {d : Addr} :
    ∀ (k : Nat) (a : Option Addr), Fr S (evalArithH env m d k a) (fun _ => True)
  | 0, _ => Fr.stuck
  | _ + 1, none => Fr.raise
  | k + 1, some a => by
    rw [evalArithH]
    refine Fr.bind readNode_fr (fun o _ => ?_)
    split
    · exact Fr.bind (evalArithH_fr k _) (fun _ _ => Fr.bind (evalArithH_fr k _) (fun _ _ => Fr.bind Fr.deep (fun _ _ =>
        Fr.bind Fr.deep (fun _ _ => Fr.bind Fr.lift (fun _ _ => Fr.pure trivial)))))
    · exact Fr.bind (evalArithH_fr k _) (fun _ _ => Fr.bind Fr.deep (fun _ _ =>
        Fr.bind Fr.lift (fun _ _ => Fr.pure trivial)))
    · exact Fr.bind Fr.alloc (fun out hout => Fr.bind readNodes_fr (fun ns _ =>
        Fr.bind (Fr.forEach (fun _ => Fr.bind (evalArithH_fr k _) (fun _ _ => addRef_fr hout)) ns) (fun _ _ =>
        Fr.bind mapToEvaluatedNodesH_fr (fun _ _ => Fr.bind callFnH_fr (fun _ _ => Fr.pure trivial)))))
    · exact Fr.pure trivial
    · exact requireFieldH_fr
    · exact Fr.raise

theorem operandH_fr {env : Env} {m : Nat} {d : Addr} {k : Nat} {ev : Option Addr → HM Bool}
    (hev : ∀ a, Fr S (ev a) (fun _ => True)) (a : Option Addr) : Fr S (operandH env m d k ev a) (fun _ => True) := by
  cases a with
  | none => exact Fr.raise
  | some a =>
    refine Fr.bind readNode_fr (fun o _ => ?_)
    split
    · exact lookupFieldH_fr
    · exact optOfH_fr
    · exact Fr.bind (evalArithH_fr k _) (fun _ _ => optOfH_fr)
    · exact Fr.bind (evalArithH_fr k _) (fun _ _ => optOfH_fr)
    · exact Fr.bind (hev _) (fun _ _ => Fr.pure trivial)

theorem isNullFieldH_fr (a : Option Addr) : Fr S (isNullFieldH a) (fun _ => True) := by
  cases a with
  | none => exact Fr.pure trivial
  | some a =>
    refine Fr.bind readNode_fr (fun o _ => ?_)
    split
    · exact Fr.pure trivial
    · exact Fr.raise
    · exact Fr.pure trivial

theorem isNullCheckH_fr {op : CmpOp} {l r : Option Addr} : Fr S (isNullCheckH op l r) (fun _ => True) := by
  unfold isNullCheckH
  split
  · refine Fr.bind (isNullFieldH_fr r) (fun b _ => ?_)
    split
    · exact Fr.pure trivial
    · exact isNullFieldH_fr l
  · exact Fr.pure trivial

theorem itemH_fr {env : Env} {m : Nat} {d : Addr} {k : Nat} {ev : Option Addr → HM Bool}
    (hev : ∀ a, Fr S (ev a) (fun _ => True)) (a : Option Addr) : Fr S (itemH env m d k ev a) (fun _ => True) := by
  cases a with
  | none => exact Fr.raise
  | some a =>
    refine Fr.bind readNode_fr (fun o _ => ?_)
    split
    · exact evalArithH_fr k _
    · exact evalArithH_fr k _
    · exact evalArithH_fr k _
    · exact evalArithH_fr k _
    · exact Fr.bind (hev _) (fun _ _ => Fr.pure trivial)

theorem resolveH_fr {env : Env} {m : Nat} {d : Addr} {k : Nat} {ev : Option Addr → HM Bool}
    (hev : ∀ a, Fr S (ev a) (fun _ => True)) (items : Addr) :
    Fr S (resolveH env m d k ev items) (fun _ => True) :=
  Fr.bind Fr.alloc (fun _ hout => Fr.bind readNodes_fr (fun ns _ =>
    Fr.bind (Fr.forEach (fun a => Fr.bind (itemH_fr hev a) (fun _ _ => addRef_fr hout)) ns) (fun _ _ =>
    Fr.bind mapToEvaluatedNodesH_fr (fun _ _ => readTyped_fr))))

theorem evalUnaryH_fr {m : Nat} {d : Addr} {dt : DataType} {r : Ref} :
    Fr S (evalUnaryH m d dt r) (fun _ => True) := by
  refine Fr.bind Fr.deep (fun v _ => ?_)
  split
  · split
    · exact Fr.pure trivial
    · exact Fr.raise
    · exact Fr.raise
  · refine Fr.bind Fr.lift (fun _ _ => Fr.bind requireFieldH_fr (fun x _ => ?_))
    split
    · exact Fr.pure trivial
    · exact Fr.raise

theorem evalBoolH_fr {env : Env} {m : Nat} {d : Addr} :
    ∀ (k : Nat) (a : Option Addr), Fr S (evalBoolH env m d k a) (fun _ => True)
  | 0, _ => Fr.stuck
  | _ + 1, none => Fr.raise
  | k + 1, some a => by
    rw [evalBoolH]
    refine Fr.bind readNode_fr (fun o _ => ?_)
    split
    · refine Fr.bind (operandH_fr (evalBoolH_fr k) _) (fun lo _ => Fr.bind isNullCheckH_fr (fun nc _ =>
        Fr.bind (P := fun _ => True) ?_ (fun x _ => Fr.bind (P := fun _ => True) ?_ (fun y _ =>
        Fr.bind Fr.deep (fun _ _ => Fr.bind Fr.deep (fun _ _ => Fr.lift))))))
      · split
        · exact Fr.pure trivial
        · split
          · exact Fr.pure trivial
          · exact Fr.raise
      · split
        · exact Fr.pure trivial
        · refine Fr.bind (operandH_fr (evalBoolH_fr k) _) (fun o _ => ?_)
          split
          · exact Fr.pure trivial
          · exact Fr.raise
    · exact Fr.bind requireFieldH_fr (fun _ _ => Fr.bind Fr.deep (fun _ _ => Fr.bind Fr.deep (fun _ _ =>
        Fr.bind Fr.deep (fun _ _ => Fr.bind Fr.lift (fun _ _ => Fr.bind Fr.lift (fun _ _ => Fr.pure trivial))))))
    · exact Fr.bind requireFieldH_fr (fun _ _ => Fr.bind Fr.deep (fun _ _ =>
        Fr.bind (resolveH_fr (evalBoolH_fr k) _) (fun _ _ => Fr.lift)))
    · refine Fr.bind requireFieldH_fr (fun _ _ => Fr.bind Fr.deep (fun _ _ =>
        Fr.bind (resolveH_fr (evalBoolH_fr k) _) (fun rs _ => ?_)))
      split
      · exact Fr.bind (P := fun _ => True) Fr.raise (fun _ _ => Fr.lift)
      · exact Fr.lift
    · exact evalUnaryH_fr
    · refine Fr.bind (evalBoolH_fr k _) (fun b _ => ?_)
      split
      · exact evalBoolH_fr k _
      · exact Fr.pure trivial
    · refine Fr.bind (evalBoolH_fr k _) (fun b _ => ?_)
      split
      · exact Fr.pure trivial
      · exact evalBoolH_fr k _
    · exact Fr.bind (evalBoolH_fr k _) (fun _ _ => Fr.pure trivial)
    · exact Fr.pure trivial
    · exact Fr.pure trivial
    · exact Fr.pure trivial

end BoolParser
