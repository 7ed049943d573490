import Verif.Model.Node
/-!
# How large a node is
-/

namespace BoolParser.Spec
open BoolParser

mutual
/-- The number of node objects in the tree of a node. -/
def nodeCount : Node → Nat
  | .cmp l r _ _ => nodeCount l + nodeCount r + 1
  | .range _ _ _ _ _ => 1
  | .inn _ items => nodeCounts items + 1
  | .array _ _ items => nodeCounts items + 1
  | .unary _ _ => 1
  | .and_ l r => nodeCount l + nodeCount r + 1
  | .or_ l r => nodeCount l + nodeCount r + 1
  | .not_ l => nodeCount l + 1
  | .field _ => 1
  | .arith _ l r => nodeCount l + nodeCount r + 1
  | .neg l => nodeCount l + 1
  | .func _ items => nodeCounts items + 1
def nodeCounts : List Node → Nat
  | [] => 0
  | n :: ns => nodeCount n + nodeCounts ns
end

mutual
/-- The length of the longest path downwards, counted in node objects: how deep the evaluators recurse. -/
def nodeDepth : Node → Nat
  | .cmp l r _ _ => max (nodeDepth l) (nodeDepth r) + 1
  | .range _ _ _ _ _ => 1
  | .inn _ items => nodeDepths items + 1
  | .array _ _ items => nodeDepths items + 1
  | .unary _ _ => 1
  | .and_ l r => max (nodeDepth l) (nodeDepth r) + 1
  | .or_ l r => max (nodeDepth l) (nodeDepth r) + 1
  | .not_ l => nodeDepth l + 1
  | .field _ => 1
  | .arith _ l r => max (nodeDepth l) (nodeDepth r) + 1
  | .neg l => nodeDepth l + 1
  | .func _ items => nodeDepths items + 1
def nodeDepths : List Node → Nat
  | [] => 0
  | n :: ns => max (nodeDepth n) (nodeDepths ns)
end

end BoolParser.Spec
