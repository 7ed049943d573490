import Verif.Spec.Nodes
import Verif.Lemmas.Ladder
/-!
# The node of a condition
-/

namespace BoolParser
open Spec

theorem firstType_tree : (e : Arith) → e.Valid → e.tree.startType = e.firstType
  | .field f, _ => rfl
  | .lit l, h => by rw [Arith.Valid] at h; rw [Arith.tree, Tree.startType, Arith.firstType, tokType_lit h]
  | .group _, _ => by rw [Arith.tree]; rfl
  | .op o l r, h => by
    rw [Arith.Valid] at h
    rw [Arith.tree, Tree.startType, Arith.firstType, firstType_tree l h.1]
  | .neg _, _ => by rw [Arith.tree]; rfl
  | .call _ _, _ => by rw [Arith.tree]; rfl

theorem cond_node (df : Option JStr) : (c : Cond) → c.Valid → nodeOf df c.tree = c.node df
  | .cmp o l r, h => by
    rw [Cond.tree, nodeOf, Cond.node, arith_node df l h.1, arith_node df r h.2.1, firstType_tree l h.1,
      firstType_tree r h.2.1, isAtom_isTypes, isAtom_isTypes]
  | .cmpD o r, h => by
    have hn : nodeOf df (.types (cmpTok o) true) = .field df := by rw [nodeOf]; rfl
    have ht : (Tree.types (cmpTok o) true).startType = .string := by cases o <;> rfl
    have hi : (Tree.types (cmpTok o) true).isTypes = true := rfl
    rw [Cond.tree, nodeOf, Cond.node, hn, arith_node df r h.1, firstType_tree r h.1, isAtom_isTypes, ht, hi]
    cases r.isAtom <;> rfl
  | .isNull f eq, h => by
    rw [Cond.tree, nodeOf, nodeOf_field, nodeOf_field, Cond.node]; rfl
  | .range f lo hi, h => by
    rw [Cond.tree, nodeOf, Cond.node, lo.tokVal h.2.1, hi.tokVal h.2.2.1, tokType_lit h.2.1, tokType_lit h.2.2.1]; rfl
  | .isIn f ng items, h => by
    rw [Cond.tree, nodeOf, Cond.node, arith_nodes df items h.2.2]; rfl
  | .contains f o items, h => by
    rw [Cond.tree, nodeOf, Cond.node, arith_nodes df items h.2.2]; rfl
  | .notField f, h => by
    have e1 : Tree.tokVal (.types (fieldTok f) false) = .str f := by
      show tokVal (fieldTok f) = _
      rw [tokVal, show convertValue (fieldTok f).text (tokType (fieldTok f)) = .ok (.str f) from field_conv h]; rfl
    rw [Cond.tree, nodeOf, if_pos (by rfl), e1, Cond.node]; rfl
  | .not c, h => by
    rw [Cond.tree, nodeOf, cond_isTypes, if_neg (by decide), cond_node df c h, Cond.node]
  | .group c, h => by rw [Cond.tree, nodeOf, cond_node df c h, Cond.node]
  | .conn conj l r, h => by rw [Cond.tree, nodeOf, cond_node df l h.1, cond_node df r h.2, Cond.node]

theorem Spec.Writes.node {s : JStr} {c : Cond} (h : Writes s c) (df : Option JStr) :
    parseExpression s df = .success (c.node df) := by
  rw [parse_cond h.valid h.grouped h.readable h.renders df, cond_node df c h.valid]

end BoolParser
