import Verif.Lemmas.Ask
import Verif.Lemmas.Families
import Verif.Lemmas.CondNode
import Verif.Spec.Ask
import Verif.Props.Recovery
/-!
# Which names the conditions of the grammar ask for (for C96)
-/

namespace BoolParser
open Spec

mutual
theorem arith_names : (e : Arith) → e.node.names true = e.fields
  | .field _ => by simp [Arith.node, Arith.fields, Node.names]
  | .lit _ => by simp [Arith.node, Arith.fields, Node.names]
  | .group e => by rw [Arith.node, Arith.fields, arith_names e]
  | .op _ l r => by simp only [Arith.node, Arith.fields, Node.names, if_true]; rw [arith_names l, arith_names r]
  | .neg e => by simp only [Arith.node, Arith.fields, Node.names, if_true]; rw [arith_names e]
  | .call _ args => by simp only [Arith.node, Arith.fields, Node.names, if_true]; rw [ariths_names args]
theorem ariths_names : (es : List Arith) → namesAll (Arith.nodes es) = Arith.allFields es
  | [] => rfl
  | e :: es => by rw [Arith.nodes, namesAll, Arith.allFields, arith_names e, ariths_names es]
end

theorem all_eq {α : Type} {m : Ask α} {a b : List JStr} (h : AsksAll a m) (e : a = b) : AsksAll b m := e ▸ h

theorem from_all {α : Type} {m : Ask α} {a : List JStr} (h : AsksAll a m) : AsksFrom a m := by
  intro h0
  obtain ⟨l, e, hp, _⟩ := h h0
  exact ⟨l, e, hp.sublist⟩

variable (S : UserMap) (env : Env)

theorem operand_all (e : Arith) (b : Ask Bool) : AsksAll e.fields (operandValueA S env e.node b) := by
  have base : ∀ n : Node, n.isArithBase = true → AsksAll (n.names true) (operandValueA S env n b) := by
    intro n hn
    cases n with
    | field f => simp only [operandValueA, Node.names, if_true]; exact all_ask S f
    | unary dt v => exact all_told _
    | arith op l r => exact all_last (evalArithA_all S env _) fun v => all_told _
    | neg l => exact all_last (evalArithA_all S env _) fun v => all_told _
    | func f items => exact all_last (evalArithA_all S env _) fun v => all_told _
    | _ => cases hn
  exact all_eq (base _ (node_base e)) (arith_names e)

theorem items_all : (es : List Arith) → AsksAll (Arith.allFields es) (evalItemsA S env (Arith.nodes es))
  | [] => by simp only [Arith.nodes, evalItemsA, Arith.allFields]; exact all_told _
  | e :: es => by
    simp only [Arith.nodes, evalItemsA, Arith.allFields]
    refine all_bind ?_ fun v => all_last (items_all es) fun vs => all_told _
    rw [itemValueA, if_pos (node_base e)]
    exact all_eq (evalArithA_all S env _) (arith_names e)

/-- A comparison that is no null check. -/
theorem comparison_all {op : CmpOp} {l r : Node} {lv rv : Ask (Option Value)} {a b : List JStr}
    (hn : isNullCheck op l r = .ok false ∨ ∃ e, isNullCheck op l r = .error e) (hl : AsksAll a lv) (hr : AsksAll b rv) :
    AsksAll (a ++ b) (evalComparisonA op l r lv rv) := by
  unfold evalComparisonA
  rcases hn with hn | ⟨e, hn⟩
  · refine all_bind hl fun lo => ?_
    rw [hn]
    show AsksAll b (told (leftGiven false lo) >>= fun a => rightAsked false rv >>= fun b =>
      told (logicalCmp op a (getDataType a) b (getDataType b)))
    exact all_first (all_told _) fun x => all_last (all_last hr fun ro => all_told _) fun y => all_told _
  · refine all_bind hl fun lo => ?_
    rw [hn]
    exact all_fail e

theorem plain_cmp_node {o : CmpOp} {l r : Arith} {left : Cond.Left} (hv : (Cond.cmp o l r).Valid)
    (hrd : (Cond.cmp o l r).readable left = true) : isNullCheck o l.node r.node = .ok false := by
  obtain ⟨h1, h2⟩ := cmp_sides hrd
  refine plain_check fun ho => ?_
  rw [← arith_node none l hv.1, ← arith_node none r hv.2.1]
  exact ⟨nullField_false none hv.1 h1 (hv.2.2 ho).1, nullField_false none hv.2.1 h2 (hv.2.2 ho).2⟩

theorem cmpD_check {o : CmpOp} {r : Arith} {left : Cond.Left} {df : Option JStr} (hdf : DefaultOk df)
    (hv : (Cond.cmpD o r).Valid) (hrd : (Cond.cmpD o r).readable left = true) :
    isNullCheck o (.field df) r.node = .ok false ∨ ∃ e, isNullCheck o (.field df) r.node = .error e := by
  have h2 : r.isAtom = true ∨ ∃ a, r.readable a = true := by
    rw [Cond.readable] at hrd
    by_cases hr : r.isAtom = true
    · exact .inl hr
    · rw [if_neg hr] at hrd; exact side_ok hrd
  cases df with
  | none =>
    unfold isNullCheck
    split
    · rename_i ho
      have ho' : o = .eq ∨ o = .ne := by simpa using ho
      rw [← arith_node none r hv.1, nullField_false none hv.1 h2 (hv.2 ho'), ok_bind]
      exact .inr ⟨_, rfl⟩
    · exact .inl rfl
  | some f =>
    refine .inl (plain_check fun ho => ?_)
    rw [← arith_node (some f) r hv.1]
    refine ⟨?_, nullField_false _ hv.1 h2 (hv.2 ho)⟩
    rw [Node.isNullField, hdf f rfl]

theorem nullCheck_all (f : JStr) (eq : Bool) (df : Option JStr) :
    AsksAll [f] (evalBoolA S env ((Cond.isNull f eq).node df)) := by
  have hn : isNullCheck (if eq then .eq else .ne) (.field (some f)) (.field (some j!"null")) = .ok true := by
    cases eq <;> rfl
  simp only [Cond.node, evalBoolA, evalComparisonA]
  refine all_last (all_ask S (some f)) fun lo => ?_
  rw [hn]
  show AsksAll [] (told (leftGiven true lo) >>= fun a => rightAsked true
      (operandValueA S env (Node.field (some j!"null")) (pure false)) >>= fun b =>
      told (logicalCmp (if eq = true then CmpOp.eq else CmpOp.ne) a (getDataType a) b (getDataType b)))
  exact all_first (all_told _) fun x => all_first (all_told _) fun y => all_told _

theorem unary_all (f : JStr) : AsksAll [f] (evalUnaryA S .string (.str f)) := by
  show AsksAll [f] (askRequired S (some f) >>= fun x => told (boolOperand x))
  exact all_last (all_required S (some f)) fun x => all_told _

/-- A single test asks for its names one after the other. -/
theorem single_all {df : Option JStr} (hdf : DefaultOk df) : (c : Cond) → c.Valid →
    ∀ left, c.readable left = true → c.single = true → AsksAll (c.fields df) (evalBoolA S env (c.node df))
  | .cmp o l r, hv, left, hrd, _ => by
    simp only [Cond.node, evalBoolA, Cond.fields]
    exact comparison_all (.inl (plain_cmp_node hv hrd)) (operand_all S env l _) (operand_all S env r _)
  | .cmpD o r, hv, left, hrd, _ => by
    simp only [Cond.node, evalBoolA, Cond.fields]
    exact comparison_all (cmpD_check hdf hv hrd) (all_ask S df) (operand_all S env r _)
  | .isNull f eq, _, _, _, _ => nullCheck_all S env f eq df
  | .range f lo hi, _, _, _, _ => by
    simp only [Cond.node, evalBoolA, Cond.fields]
    exact all_last (all_required S (some f)) fun v => all_told _
  | .isIn f ng items, _, _, _, _ => by
    have : AsksAll (f :: Arith.allFields items) (evalBoolA S env (.inn f (Arith.nodes items))) := by
      simp only [evalBoolA]
      exact all_bind (a := [f]) (all_required S (some f)) fun v => all_last (items_all S env items) fun vs => all_told _
    simp only [Cond.node, Cond.fields]
    split
    · simp only [evalBoolA] at this ⊢
      exact all_last this fun b => all_told _
    · exact this
  | .contains f o items, _, _, _, _ => by
    simp only [Cond.node, evalBoolA, Cond.fields]
    exact all_bind (a := [f]) (all_required S (some f)) fun v => all_last (items_all S env items) fun vs => all_told _
  | .notField f, _, _, _, _ => by
    simp only [Cond.node, evalBoolA, Cond.fields]
    exact all_last (unary_all S f) fun b => all_told _
  | .not c, hv, left, hrd, hs => by
    simp only [Cond.node, evalBoolA, Cond.fields]
    exact all_last (single_all hdf c hv left hrd hs) fun b => all_told _
  | .group c, hv, left, hrd, hs => by
    simp only [Cond.node, Cond.fields]
    exact single_all hdf c hv left hrd hs

/-- Any condition asks for some of its names, in their order. -/
theorem cond_from (df : Option JStr) : (c : Cond) → AsksFrom (c.fields df) (evalBoolA S env (c.node df))
  | .cmp o l r => by
    simp only [Cond.node, evalBoolA, Cond.fields]
    exact evalComparisonA_from _ _ _ (from_all (operand_all S env l _)) (from_all (operand_all S env r _))
  | .cmpD o r => by
    simp only [Cond.node, evalBoolA, Cond.fields]
    exact evalComparisonA_from _ _ _ (from_ask S df) (from_all (operand_all S env r _))
  | .isNull f eq => from_all (nullCheck_all S env f eq df)
  | .range f lo hi => by
    simp only [Cond.node, evalBoolA, Cond.fields]
    exact from_last (from_required S (some f)) fun v => from_told _
  | .isIn f ng items => by
    have : AsksFrom (f :: Arith.allFields items) (evalBoolA S env (.inn f (Arith.nodes items))) := by
      simp only [evalBoolA]
      exact from_bind (a := [f]) (from_required S (some f)) fun v =>
        from_last (from_all (items_all S env items)) fun vs => from_told _
    simp only [Cond.node, Cond.fields]
    split
    · simp only [evalBoolA] at this ⊢
      exact from_last this fun b => from_told _
    · exact this
  | .contains f o items => by
    simp only [Cond.node, evalBoolA, Cond.fields]
    exact from_bind (a := [f]) (from_required S (some f)) fun v =>
        from_last (from_all (items_all S env items)) fun vs => from_told _
  | .notField f => by
    simp only [Cond.node, evalBoolA, Cond.fields]
    exact from_last (from_all (unary_all S f)) fun b => from_told _
  | .not c => by
    simp only [Cond.node, evalBoolA, Cond.fields]
    exact from_last (cond_from df c) fun b => from_told _
  | .group c => by
    simp only [Cond.node, Cond.fields]
    exact cond_from df c
  | .conn conj l r => by
    simp only [Cond.node, Cond.fields]
    cases conj
    · simp only [Bool.false_eq_true, if_false, evalBoolA]
      exact from_bind (cond_from df l) fun a => by cases a <;> first | exact cond_from df r | exact from_told _
    · simp only [if_true, evalBoolA]
      exact from_bind (cond_from df l) fun a => by cases a <;> first | exact cond_from df r | exact from_told _

mutual
theorem fields_written : (e : Arith) → List.Sublist e.fields e.lexemes
  | .field _ => List.Sublist.refl _
  | .lit _ => List.nil_sublist _
  | .group e => by
    simp only [Arith.fields, Arith.lexemes]
    exact ((fields_written e).trans (List.sublist_append_left _ _)).cons _
  | .op _ l r => by
    simp only [Arith.fields, Arith.lexemes]
    exact (fields_written l).append ((fields_written r).cons _)
  | .neg e => by simp only [Arith.fields, Arith.lexemes]; exact (fields_written e).cons _
  | .call _ args => by
    simp only [Arith.fields, Arith.lexemes]
    exact (((allFields_written args).trans (List.sublist_append_left _ _)).cons _).cons _
theorem allFields_written : (es : List Arith) → List.Sublist (Arith.allFields es) (Arith.argLexemes es)
  | [] => List.Sublist.refl _
  | e :: es => by
    simp only [Arith.allFields, Arith.argLexemes]
    exact (fields_written e).append (moreFields_written es)
theorem moreFields_written : (es : List Arith) → List.Sublist (Arith.allFields es) (Arith.moreLexemes es)
  | [] => List.Sublist.refl _
  | e :: es => by
    simp only [Arith.allFields, Arith.moreLexemes]
    exact ((fields_written e).append (moreFields_written es)).cons _
end

theorem cond_written : (c : Cond) → (df : Option JStr) → c.usesDefault = false → List.Sublist (c.fields df) c.lexemes
  | .cmp _ l r, _, _ => (fields_written l).append ((fields_written r).cons _)
  | .isNull f _, _, _ => by simp [Cond.fields, Cond.lexemes]
  | .range f _ _, _, _ => by simp [Cond.fields, Cond.lexemes]
  | .isIn f _ items, _, _ => by
    simp only [Cond.fields, Cond.lexemes]
    refine List.Sublist.cons_cons f (List.Sublist.trans ?_ (List.sublist_append_right _ _))
    exact (((allFields_written items).trans (List.sublist_append_left _ _)).cons _).cons _
  | .contains f _ items, _, _ => by
    simp only [Cond.fields, Cond.lexemes]
    exact List.Sublist.cons_cons f ((((allFields_written items).trans (List.sublist_append_left _ _)).cons _).cons _)
  | .notField f, _, _ => by simp [Cond.fields, Cond.lexemes]
  | .not c, df, h => (cond_written c df h).cons _
  | .group c, df, h => ((cond_written c df h).trans (List.sublist_append_left _ _)).cons _
  | .conn _ l r, df, h => by
    rw [Cond.usesDefault, Bool.or_eq_false_iff] at h
    exact (cond_written l df h.1).append ((cond_written r df h.2).cons _)

theorem ask_node {s : JStr} {df : Option JStr} {n : Node} (h : parseExpression s df = .success n) :
    parseAny s df = .ok n := by
  have := C73_parse (s := s) (df := df) (by rw [h]; simp)
  rw [h] at this
  cases e : parseAny s df with
  | ok m => rw [e] at this; cases this; rfl
  | error x => rw [e] at this; cases this

end BoolParser
