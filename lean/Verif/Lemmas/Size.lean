import Verif.Spec.Size
import Verif.Lemmas.AnyLone
/-!
# The node of a text is not much larger than the text

A parse tree has at most two nodes per token. The listener rebuilds the operands of functions, lists and comparisons at
every level, so the node can be larger than the tree; it is at most quadratic.
-/

namespace BoolParser
open Spec

/-! ## Parse trees -/

mutual
/-- How many nodes the tree stands for when it is mapped by itself. -/
def RTree.weight : RTree → Nat
  | .paren t => t.weight
  | .not_ t => t.weight + 2
  | .cmp _ l r => l.weight + r.weight + 1
  | .neg t => t.weight + 2
  | .arith _ l r => l.weight + r.weight + 1
  | .func _ _ items => weights items + 1
  | .bin _ l r => l.weight + r.weight + 1
  | .types _ _ => 1
  | .to_ _ _ _ => 1
  | .in_ _ _ _ items => weights items + 2
  | .array _ _ _ items => weights items + 1
  | .bad => 1
def weights : List RTree → Nat
  | [] => 0
  | t :: ts => t.weight + weights ts
end

theorem mkR_weight (b : BinTok) (l r : RTree) : (b.mkR l r).weight = l.weight + r.weight + 1 := by
  cases b <;> rfl

/-- What was taken off between two states pays for the weight. -/
def Paid (w k : Nat) (s s' : RState) : Prop := w + 2 * s'.toks.length ≤ 2 * s.toks.length + k

theorem paid_free {s s' : RState} (h : s.Le s') : Paid 1 1 s s' := by
  have := h.1; unfold Paid; omega

theorem rRange_paid (ctx : List Frame) (t : Token) (s : RState) : (rRange ctx t s).1.weight = 1 := by
  unfold rRange; split <;> rfl

theorem la_of {s : RState} {k : TK} (h : s.la = k) (hk : k ≠ .eof) : s.take.toks.length + 1 = s.toks.length :=
  take_len (by rw [h]; exact hk)

theorem recovery_paid (f : Nat) :
    (∀ p ctx s x, rExpr f p ctx s = some x → Paid x.1.weight 1 s x.2) ∧
    (∀ ctx s x, rPrimary f ctx s = some x → Paid x.1.weight 1 s x.2.2) ∧
    (∀ ctx t s x, rField f ctx t s = some x → Paid x.1.weight 3 s x.2.2) ∧
    (∀ p ctx l s x, rLoop f p ctx l s = some x → Paid x.1.weight l.weight s x.2) ∧
    (∀ ctx s x, rWordlist f ctx s = some x → Paid (weights x.2.1) 1 s x.2.2) ∧
    (∀ ctx s x, rMore f ctx s = some x → Paid (weights x.2.1) 0 s x.2.2) := by
  induction f with
  | zero => refine ⟨?_, ?_, ?_, ?_, ?_, ?_⟩ <;> intros <;> simp_all [rExpr, rPrimary, rField, rLoop, rWordlist, rMore]
  | succ f ih =>
    obtain ⟨hE, hP, hF, hL, hW, hM⟩ := ih
    refine ⟨?_, ?_, ?_, ?_, ?_, ?_⟩
    · intro p ctx s x h
      rw [rExpr_succ] at h
      cases e : rPrimary f ctx s with
      | none => rw [e] at h; cases h
      | some y =>
        obtain ⟨t, b, s'⟩ := y
        have h1 := hP _ _ _ e
        rw [e] at h
        cases b with
        | true => have h2 := hL _ _ _ _ _ h; unfold Paid at *; simp only at h1; omega
        | false => cases h; exact h1
    · intro ctx s x h
      rw [rPrimary_succ] at h
      cases hk : s.la with
      | lparen =>
        rw [hk] at h
        simp only at h
        have h0 := la_of hk nofun
        cases e : rExpr f 0 (.rparen :: ctx) s.take with
        | none => rw [e] at h; cases h
        | some y =>
          have h1 := hE _ _ _ _ e
          rw [e] at h
          simp only at h
          cases hm : matchTok (· == .rparen) (lookAfter (.ops :: ctx)) y.2 with
          | none =>
            rw [hm] at h; cases h
            have h2 := (failAt_le ctx 28 y.2).1
            unfold Paid at *; simp only [RTree.weight] at *; omega
          | some z =>
            rw [hm] at h; cases h
            have h2 := (matchTok_le hm).1
            unfold Paid at *; simp only [RTree.weight] at *; omega
      | kNot =>
        rw [hk] at h
        simp only at h
        have h0 := la_of hk nofun
        cases e : rExpr f 15 (.ops :: ctx) s.take with
        | none => rw [e] at h; cases h
        | some y =>
          rw [e] at h; cases h
          have h1 := hE _ _ _ _ e
          unfold Paid at *; simp only [RTree.weight] at *; omega
      | arith op =>
        rw [hk] at h
        cases op with
        | sub =>
          have h0 := la_of hk nofun
          simp only at h
          split at h
          · cases e : rExpr f 13 (.ops :: ctx) s.take with
            | none => rw [e] at h; cases h
            | some y =>
              rw [e] at h; cases h
              have h1 := hE _ _ _ _ e
              unfold Paid at *; simp only [RTree.weight] at *; omega
          · cases h; exact paid_free (failAt_le _ _ _)
        | _ => cases h; exact paid_free (.refl s)
      | fn g =>
        rw [hk] at h
        simp only at h
        have h0 := la_of hk nofun
        cases e : rWordlist f (.ops :: ctx) s.take with
        | none => rw [e] at h; cases h
        | some y =>
          obtain ⟨sh, es, s'⟩ := y
          rw [e] at h; cases h
          have h1 := hW _ _ _ e
          unfold Paid at *; simp only [RTree.weight] at *; omega
      | field =>
        rw [hk] at h
        simp only at h
        have h0 := la_of hk nofun
        split at h
        · cases h
          have h1 := (rRange_le ctx s.head s.take).1
          unfold Paid; rw [rRange_paid]; omega
        · have h1 := hF _ _ _ _ h
          unfold Paid at *; omega
      | _ => rw [hk] at h; cases h; first | exact paid_free (take_le s) | exact paid_free (.refl s)
    · intro ctx t s x h
      rw [rField_succ] at h
      cases hk : s.la with
      | kNot =>
        rw [hk] at h
        simp only at h
        have h0 := la_of hk nofun
        cases hm : matchTok (· == .kIn) (· == .lparen) s.take with
        | none =>
          rw [hm] at h; cases h
          have h1 := (failAt_le ctx 47 s.take).1
          unfold Paid; simp only [RTree.weight, weights]; omega
        | some y =>
          rw [hm] at h
          simp only at h
          have h2 := (matchTok_le hm).1
          cases e : rWordlist f (.ops :: ctx) y.2 with
          | none => rw [e] at h; cases h
          | some z =>
            obtain ⟨sh, es, s'⟩ := z
            rw [e] at h; cases h
            have h1 := hW _ _ _ e
            unfold Paid at *; simp only [RTree.weight] at *; omega
      | kIn =>
        rw [hk] at h
        simp only at h
        have h0 := la_of hk nofun
        cases e : rWordlist f (.ops :: ctx) s.take with
        | none => rw [e] at h; cases h
        | some y =>
          obtain ⟨sh, es, s'⟩ := y
          rw [e] at h; cases h
          have h1 := hW _ _ _ e
          unfold Paid at *; simp only [RTree.weight] at *; omega
      | cAll =>
        rw [hk] at h
        simp only at h
        have h0 := la_of hk nofun
        cases e : rWordlist f (.ops :: ctx) s.take with
        | none => rw [e] at h; cases h
        | some y =>
          obtain ⟨sh, es, s'⟩ := y
          rw [e] at h; cases h
          have h1 := hW _ _ _ e
          unfold Paid at *; simp only [RTree.weight] at *; omega
      | cAny =>
        rw [hk] at h
        simp only at h
        have h0 := la_of hk nofun
        cases e : rWordlist f (.ops :: ctx) s.take with
        | none => rw [e] at h; cases h
        | some y =>
          obtain ⟨sh, es, s'⟩ := y
          rw [e] at h; cases h
          have h1 := hW _ _ _ e
          unfold Paid at *; simp only [RTree.weight] at *; omega
      | _ => rw [hk] at h; cases h; unfold Paid; simp only [RTree.weight]; omega
    · intro p ctx l s x h
      rw [rLoop_succ] at h
      cases hb : binTok s.la with
      | none => rw [hb] at h; cases h; exact Nat.le_of_eq (Nat.add_comm _ _)
      | some b =>
        rw [hb] at h
        simp only at h
        split at h
        · have h0 : s.take.toks.length + 1 = s.toks.length := take_len (by intro h; rw [h] at hb; cases hb)
          cases e : rExpr f (b.prec + 1) (.ops :: ctx) s.take with
          | none => rw [e] at h; cases h
          | some y =>
            obtain ⟨r, s'⟩ := y
            rw [e] at h
            have h1 := hE _ _ _ _ e
            have h2 := hL _ _ _ _ _ h
            simp only [mkR_weight] at h2
            unfold Paid at *; simp only at h1; omega
        · cases h; exact Nat.le_of_eq (Nat.add_comm _ _)
    · intro ctx s x h
      rw [rWordlist_succ] at h
      cases hm : matchTok (· == .lparen) inListKind s with
      | none =>
        rw [hm] at h; cases h
        have := (failAt_le ctx 92 s).1
        unfold Paid; simp only [weights]; omega
      | some y =>
        have h0 := (matchTok_le hm).1
        rw [hm] at h
        simp only at h
        cases hs : syncTok inListKind y.2 with
        | none =>
          rw [hs] at h; cases h
          have := (failAt_le ctx 96 y.2).1
          unfold Paid; simp only [weights]; omega
        | some s2 =>
          have h2 := (syncTok_le hs).1
          rw [hs] at h
          simp only at h
          cases e : rExpr f 0 (.items :: ctx) s2 with
          | none => rw [e] at h; cases h
          | some z =>
            have h3 := hE _ _ _ _ e
            rw [e] at h
            simp only at h
            cases hs2 : syncTok (Frame.has .items) z.2 with
            | none =>
              rw [hs2] at h; cases h
              have := (failAt_le ctx 103 z.2).1
              unfold Paid at *; simp only [weights] at *; omega
            | some s4 =>
              have h4 := (syncTok_le hs2).1
              rw [hs2] at h
              simp only at h
              cases e5 : rMore f ctx s4 with
              | none => rw [e5] at h; cases h
              | some w =>
                obtain ⟨sh, es, s'⟩ := w
                rw [e5] at h; cases h
                have h5 := hM _ _ _ e5
                unfold Paid at *; simp only [weights] at *; omega
    · intro ctx s x h
      rw [rMore_succ] at h
      split at h
      · rename_i hk
        have h0 := la_of hk nofun
        cases hs : syncTok inListKind s.take with
        | none =>
          rw [hs] at h; cases h
          have := (failAt_le ctx 110 s.take).1
          unfold Paid; simp only [weights]; omega
        | some s2 =>
          have h2 := (syncTok_le hs).1
          rw [hs] at h
          simp only at h
          cases e : rExpr f 0 (.items :: ctx) s2 with
          | none => rw [e] at h; cases h
          | some z =>
            have h3 := hE _ _ _ _ e
            rw [e] at h
            simp only at h
            cases hs2 : syncTok (Frame.has .items) z.2 with
            | none =>
              rw [hs2] at h; cases h
              have := (failAt_le ctx 117 z.2).1
              unfold Paid at *; simp only [weights] at *; omega
            | some s4 =>
              have h4 := (syncTok_le hs2).1
              rw [hs2] at h
              simp only at h
              cases e5 : rMore f ctx s4 with
              | none => rw [e5] at h; cases h
              | some w =>
                obtain ⟨sh, es, s'⟩ := w
                rw [e5] at h; cases h
                have h5 := hM _ _ _ e5
                unfold Paid at *; simp only [weights] at *; omega
      · cases hm : matchTok (· == .rparen) (lookAfter ctx) s with
        | none =>
          rw [hm] at h; cases h
          have := (failAt_le ctx 125 s).1
          unfold Paid; simp only [weights]; omega
        | some y =>
          rw [hm] at h; cases h
          have := (matchTok_le hm).1
          unfold Paid; simp only [weights]; omega

/-- At most two nodes per token, and one. -/
theorem rParse_weight {ts : List Token} {t : RTree} {n : Nat} (h : rParse ts = some (t, n)) :
    t.weight ≤ 2 * ts.length + 1 := by
  unfold rParse at h
  split at h
  · cases h
  · rename_i t' s e
    have h1 := (recovery_paid _).1 _ _ _ _ e
    have ht : t' = t := by split at h <;> · injection h with h; injection h
    subst ht
    unfold Paid at h1
    have : (RState.init ts).toks.length = ts.length := rfl
    simp only at h1
    omega

/-! ## The listener -/

theorem nodeCount_pos (n : Node) : 1 ≤ nodeCount n := by
  cases n <;> simp only [nodeCount] <;> omega

theorem mapTypes_count (df : Option JStr) (t : Token) (e : Bool) : Yields (fun n => nodeCount n = 1) (mapTypes df t e) := by
  unfold mapTypes
  refine yields_ite (yields_ok rfl) (yields_ite (yields_ok rfl) ?_)
  exact yields_bind (yields_any _) fun _ _ => yields_ok rfl

theorem popN_count (st : NStack) : Yields (fun p => nodeCount p.1 + nodeCounts p.2 = nodeCounts st) (popN st) := by
  cases st with
  | nil => exact yields_err _
  | cons n st => exact yields_ok rfl

mutual
theorem mapNodeR_count (df : Option JStr) : (t : RTree) → ∀ st,
    Yields (fun p => nodeCount p.1 + nodeCounts p.2 ≤ nodeCounts st + t.weight) (mapNodeR df t st)
  | .types t e, st => by
    simp only [mapNodeR]
    exact yields_bind (mapTypes_count df t e) fun n hn => yields_ok (by simp only [RTree.weight]; omega)
  | .func f sh items, st => by
    simp only [mapNodeR]
    exact yields_bind (yields_any _) fun _ _ => yields_bind (mapNodesR_count df items st) fun p hp =>
      yields_ok (by simp only [RTree.weight, nodeCount]; omega)
  | .in_ f neg sh items, st => by
    simp only [mapNodeR]
    refine yields_bind (yields_any _) fun _ _ => yields_bind (mapNodesR_count df items st) fun p hp => yields_ok ?_
    cases neg
    · simp only [RTree.weight, nodeCount, Bool.false_eq_true, if_false]; omega
    · simp only [RTree.weight, nodeCount, if_true]; omega
  | .to_ f lo hi, st => by
    simp only [mapNodeR]
    refine yields_bind (yields_any _) fun a ha => ?_
    split
    · exact yields_err _
    · exact yields_bind (yields_any _) fun b hb => yields_ok (by simp only [RTree.weight, nodeCount]; omega)
  | .cmp op l r, st => by
    simp only [mapNodeR]
    refine yields_ite ?_ (yields_ite ?_ ?_)
    · exact yields_bind (mapNodeR_count df l st) fun p hp => yields_bind (popN_count _) fun q hq =>
        yields_ok (by simp only [RTree.weight, nodeCount]; omega)
    · exact yields_bind (mapNodeR_count df r st) fun p hp => yields_bind (popN_count _) fun q hq =>
        yields_ok (by simp only [RTree.weight, nodeCount]; omega)
    · exact yields_bind (mapNodeR_count df r st) fun p hp => yields_bind (mapNodeR_count df l _) fun q hq =>
        yields_ok (by simp only [RTree.weight, nodeCount]; omega)
  | .arith op l r, st => by
    simp only [mapNodeR]
    refine yields_ite ?_ (yields_ite ?_ (yields_ite ?_ ?_))
    · exact yields_bind (mapNodeR_count df l st) fun p hp => yields_bind (mapNodeR_count df r _) fun q hq =>
        yields_ok (by simp only [RTree.weight, nodeCount]; omega)
    · exact yields_bind (mapNodeR_count df l st) fun p hp => yields_bind (popN_count _) fun q hq =>
        yields_ok (by simp only [RTree.weight, nodeCount]; omega)
    · exact yields_bind (mapNodeR_count df r st) fun p hp => yields_bind (popN_count _) fun q hq =>
        yields_ok (by simp only [RTree.weight, nodeCount]; omega)
    · match st with
      | b :: a :: st => exact yields_ok (by simp only [RTree.weight, nodeCount, nodeCounts]; omega)
      | [_] => exact yields_err _
      | [] => exact yields_err _
  | .paren _, _ => by simp only [mapNodeR]; exact yields_err _
  | .not_ _, _ => by simp only [mapNodeR]; exact yields_err _
  | .neg _, _ => by simp only [mapNodeR]; exact yields_err _
  | .bin _ _ _, _ => by simp only [mapNodeR]; exact yields_err _
  | .array _ _ _ _, _ => by simp only [mapNodeR]; exact yields_err _
  | .bad, _ => by simp only [mapNodeR]; exact yields_err _
theorem mapNodesR_count (df : Option JStr) : (ts : List RTree) → ∀ st,
    Yields (fun p => nodeCounts p.1 + nodeCounts p.2 ≤ nodeCounts st + weights ts) (mapNodesR df ts st)
  | [], st => by simp only [mapNodesR]; exact yields_ok (by simp only [weights, nodeCounts]; omega)
  | t :: ts, st => by
    simp only [mapNodesR]
    exact yields_bind (mapNodeR_count df t st) fun p hp => yields_bind (mapNodesR_count df ts _) fun q hq =>
      yields_ok (by simp only [weights, nodeCounts]; omega)
end

mutual
/-- How many nodes the walk over the tree can make. -/
def RTree.made : RTree → Nat
  | .paren t => t.made
  | .not_ t => t.made + 2
  | .cmp _ l r => l.made + r.made + (l.weight + r.weight + 1)
  | .neg t => t.made + 2
  | .arith _ l r => l.made + r.made + (l.weight + r.weight + 1)
  | .func _ _ items => mades items + (weights items + 1)
  | .bin _ l r => l.made + r.made + 1
  | .types _ _ => 0
  | .to_ _ _ _ => 1
  | .in_ _ _ _ items => mades items + (weights items + 2)
  | .array _ _ _ items => mades items + (weights items + 1)
  | .bad => 0
def mades : List RTree → Nat
  | [] => 0
  | t :: ts => t.made + mades ts
end

/-- The stack grew by at most that many nodes. -/
def Grew (w : Nat) (s s' : LState) : Prop := nodeCounts s'.stack ≤ nodeCounts s.stack + w

theorem exitMappedR_count (df : Option JStr) (t : RTree) (s : LState) : Yields (Grew t.weight s) (exitMappedR df t s) := by
  unfold exitMappedR
  exact yields_bind (mapNodeR_count df t _) fun p hp => yields_ok (by unfold Grew; simp only [nodeCounts]; omega)

theorem exitNegR_count (df : Option JStr) (e : RTree) (s : LState) : Yields (Grew 2 s) (exitNegR df e s) := by
  have leaf : Yields (Grew 2 s) (match (generalizing := false) e with
    | .types t em => do
      let n ← mapTypes df t em
      pure { s with stack := .neg n :: s.stack }
    | _ => .error .classCast : Result LState) := by
    cases e with
    | types u em =>
      exact yields_bind (mapTypes_count df u em) fun n hn => yields_ok (by
        unfold Grew; simp only [nodeCounts, nodeCount]; omega)
    | _ => exact yields_err _
  unfold exitNegR
  simp only
  split
  · rename_i n st e'
    refine yields_ite (yields_ok ?_) leaf
    unfold Grew
    rw [e']
    simp only [nodeCounts, nodeCount]; omega
  · exact leaf

theorem exitArrayR_count (df : Option JStr) (f : Token) (op : ArrOp) (sh : ListShape) (items : List RTree) (s : LState) :
    Yields (Grew (weights items + 1) s) (exitArrayR df f op sh items s) := by
  unfold exitArrayR
  exact yields_bind (yields_any _) fun _ _ => yields_bind (mapNodesR_count df items _) fun p hp =>
    yields_ok (by unfold Grew; simp only [nodeCounts, nodeCount]; omega)

theorem exitNot_count (s : LState) : Yields (Grew 2 s) (exitNot s) := by
  unfold exitNot
  split
  · rename_i n st e
    refine yields_ok ?_
    unfold Grew
    rw [e]
    simp only [nodeCounts, nodeCount]; omega
  · split
    · exact yields_err _
    · exact yields_bind (yields_any _) fun v _ => yields_ok (by unfold Grew; simp only [nodeCounts, nodeCount]; omega)

theorem exitBin_count (c : Bool) (s : LState) : Yields (Grew 1 s) (exitBin c s) := by
  unfold exitBin
  split
  · rename_i b a st e
    refine yields_ok ?_
    unfold Grew
    rw [e]
    cases c
    · simp only [nodeCounts, nodeCount, Bool.false_eq_true, if_false]; omega
    · simp only [nodeCounts, nodeCount, if_true]; omega
  · exact yields_err _

theorem Grew.and_then {a b c : Nat} {s s1 s2 : LState} (h : Grew a s s1) (h' : Grew b s1 s2) (hc : a + b ≤ c) : Grew c s s2 := by
  unfold Grew at *; omega

mutual
theorem walkR_count (df : Option JStr) : (t : RTree) → ∀ s, Yields (Grew t.made s) (walkR df t s)
  | .paren t, s => by
    simp only [walkR]
    exact yields_imp (walkR_count df t s) fun _ h => h
  | .not_ t, s => by
    simp only [walkR]
    exact yields_bind (walkR_count df t s) fun s' hs' =>
      yields_imp (exitNot_count s') fun _ h => hs'.and_then h (by simp only [RTree.made]; omega)
  | .cmp op l r, s => by
    simp only [walkR]
    exact yields_bind (walkR_count df l s) fun s1 h1 => yields_bind (walkR_count df r s1) fun s2 h2 =>
      yields_imp (exitMappedR_count df _ s2) fun _ h => (h1.and_then h2 (Nat.le_refl _)).and_then h (by
        simp only [RTree.made, RTree.weight]; omega)
  | .neg t, s => by
    simp only [walkR]
    exact yields_bind (walkR_count df t s) fun s' hs' =>
      yields_imp (exitNegR_count df t s') fun _ h => hs'.and_then h (by simp only [RTree.made]; omega)
  | .arith op l r, s => by
    simp only [walkR]
    exact yields_bind (walkR_count df l s) fun s1 h1 => yields_bind (walkR_count df r s1) fun s2 h2 =>
      yields_imp (exitMappedR_count df _ s2) fun _ h => (h1.and_then h2 (Nat.le_refl _)).and_then h (by
        simp only [RTree.made, RTree.weight]; omega)
  | .func f sh items, s => by
    simp only [walkR]
    exact yields_bind (walkAllR_count df items s) fun s1 h1 =>
      yields_imp (exitMappedR_count df _ s1) fun _ h => h1.and_then h (by simp only [RTree.made, RTree.weight]; omega)
  | .bin c l r, s => by
    simp only [walkR]
    exact yields_bind (walkR_count df l s) fun s1 h1 => yields_bind (walkR_count df r s1) fun s2 h2 =>
      yields_imp (exitBin_count c s2) fun _ h => (h1.and_then h2 (Nat.le_refl _)).and_then h (by
        simp only [RTree.made]; omega)
  | .types t e, s => by simp only [walkR]; exact yields_ok (by unfold Grew; simp only; omega)
  | .to_ f lo hi, s => by
    simp only [walkR]; exact yields_imp (exitMappedR_count df _ s) fun _ h => h
  | .in_ f neg sh items, s => by
    simp only [walkR]
    exact yields_bind (walkAllR_count df items s) fun s1 h1 =>
      yields_imp (exitMappedR_count df _ s1) fun _ h => h1.and_then h (by simp only [RTree.made, RTree.weight]; omega)
  | .array f op sh items, s => by
    simp only [walkR]
    exact yields_bind (walkAllR_count df items s) fun s1 h1 =>
      yields_imp (exitArrayR_count df f op sh items s1) fun _ h => h1.and_then h (by simp only [RTree.made]; omega)
  | .bad, s => by simp only [walkR]; exact yields_ok (by unfold Grew; omega)
theorem walkAllR_count (df : Option JStr) : (ts : List RTree) → ∀ s, Yields (Grew (mades ts) s) (walkAllR df ts s)
  | [], s => by simp only [walkAllR]; exact yields_ok (by unfold Grew; omega)
  | t :: ts, s => by
    simp only [walkAllR]
    exact yields_bind (walkR_count df t s) fun s1 h1 =>
      yields_imp (walkAllR_count df ts s1) fun _ h => h1.and_then h (by simp only [mades]; omega)
end

mutual
theorem made_le : (t : RTree) → 2 * t.made ≤ t.weight * (t.weight + 1)
  | .paren t => by simp only [RTree.made, RTree.weight]; exact made_le t
  | .not_ t => by
    have h := made_le t
    simp only [RTree.made, RTree.weight]; generalize t.weight = w at *; simp only [Nat.add_mul, Nat.mul_add, Nat.mul_one, Nat.one_mul] at *; omega
  | .cmp _ l r => by
    have h := made_le l
    have h' := made_le r
    simp only [RTree.made, RTree.weight]; generalize l.weight = w at *; generalize r.weight = v at *; simp only [Nat.add_mul, Nat.mul_add, Nat.mul_one, Nat.one_mul] at *; omega
  | .neg t => by
    have h := made_le t
    simp only [RTree.made, RTree.weight]; generalize t.weight = w at *; simp only [Nat.add_mul, Nat.mul_add, Nat.mul_one, Nat.one_mul] at *; omega
  | .arith _ l r => by
    have h := made_le l
    have h' := made_le r
    simp only [RTree.made, RTree.weight]; generalize l.weight = w at *; generalize r.weight = v at *; simp only [Nat.add_mul, Nat.mul_add, Nat.mul_one, Nat.one_mul] at *; omega
  | .func _ _ items => by
    have h := mades_le items
    simp only [RTree.made, RTree.weight]; generalize weights items = w at *; simp only [Nat.add_mul, Nat.mul_add, Nat.mul_one, Nat.one_mul] at *; omega
  | .bin _ l r => by
    have h := made_le l
    have h' := made_le r
    simp only [RTree.made, RTree.weight]; generalize l.weight = w at *; generalize r.weight = v at *; simp only [Nat.add_mul, Nat.mul_add, Nat.mul_one, Nat.one_mul] at *; omega
  | .types _ _ => by simp only [RTree.made, RTree.weight]; omega
  | .to_ _ _ _ => by simp only [RTree.made, RTree.weight]; omega
  | .in_ _ _ _ items => by
    have h := mades_le items
    simp only [RTree.made, RTree.weight]; generalize weights items = w at *; simp only [Nat.add_mul, Nat.mul_add, Nat.mul_one, Nat.one_mul] at *; omega
  | .array _ _ _ items => by
    have h := mades_le items
    simp only [RTree.made, RTree.weight]; generalize weights items = w at *; simp only [Nat.add_mul, Nat.mul_add, Nat.mul_one, Nat.one_mul] at *; omega
  | .bad => by simp only [RTree.made, RTree.weight]; omega
theorem mades_le : (ts : List RTree) → 2 * mades ts ≤ weights ts * (weights ts + 1)
  | [] => by simp only [mades, weights]; omega
  | t :: ts => by
    have h := made_le t
    have h' := mades_le ts
    simp only [mades, weights]; generalize t.weight = w at *; generalize weights ts = v at *; simp only [Nat.add_mul, Nat.mul_add, Nat.mul_one, Nat.one_mul] at *; omega
end

theorem listenR_count (df : Option JStr) (t : RTree) : Yields (fun n => nodeCount n ≤ max t.made 1) (listenR df t) := by
  unfold listenR
  refine yields_bind (walkR_count df t LState.init) fun s hs => ?_
  have h0 : nodeCounts LState.init.stack = 0 := rfl
  unfold Grew at hs
  unfold exitParse
  split
  · rename_i n st e
    refine yields_ok ?_
    rw [e] at hs
    simp only [nodeCounts] at hs h0
    omega
  · split
    · refine yields_ite (yields_ite (yields_ok ?_) (yields_bind (yields_any _) fun _ _ => yields_ok ?_)) (yields_err _)
      · simp only [nodeCount]; omega
      · simp only [nodeCount]; omega
    · exact yields_err _

/-! ## Depth -/

mutual
theorem nodeDepth_le : (n : Node) → nodeDepth n ≤ nodeCount n
  | .cmp l r _ _ => by have := nodeDepth_le l; have := nodeDepth_le r; simp only [nodeDepth, nodeCount]; omega
  | .range _ _ _ _ _ => Nat.le_refl _
  | .inn _ items => by have := nodeDepths_le items; simp only [nodeDepth, nodeCount]; omega
  | .array _ _ items => by have := nodeDepths_le items; simp only [nodeDepth, nodeCount]; omega
  | .unary _ _ => Nat.le_refl _
  | .and_ l r => by have := nodeDepth_le l; have := nodeDepth_le r; simp only [nodeDepth, nodeCount]; omega
  | .or_ l r => by have := nodeDepth_le l; have := nodeDepth_le r; simp only [nodeDepth, nodeCount]; omega
  | .not_ l => by have := nodeDepth_le l; simp only [nodeDepth, nodeCount]; omega
  | .field _ => Nat.le_refl _
  | .arith _ l r => by have := nodeDepth_le l; have := nodeDepth_le r; simp only [nodeDepth, nodeCount]; omega
  | .neg l => by have := nodeDepth_le l; simp only [nodeDepth, nodeCount]; omega
  | .func _ items => by have := nodeDepths_le items; simp only [nodeDepth, nodeCount]; omega
theorem nodeDepths_le : (ns : List Node) → nodeDepths ns ≤ nodeCounts ns
  | [] => Nat.le_refl _
  | n :: ns => by have := nodeDepth_le n; have := nodeDepths_le ns; simp only [nodeDepths, nodeCounts]; omega
end

end BoolParser
