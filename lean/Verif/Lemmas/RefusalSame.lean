import Verif.Lemmas.Wording
import Verif.Props.Recovery
import Verif.Lemmas.VerbatimParse
/-!
# Forgetting the messages of the parser (for C101, C102)
-/

namespace BoolParser
open Spec

theorem untold_pairs {α β γ : Type} (m : Told (α × β)) (f : α → β → Told γ) :
    untold (m >>= fun x => match x with | (a, b) => f a b) = (untold m >>= fun x => match x with | (a, b) => untold (f a b)) := by
  cases m <;> rfl

mutual
theorem mapNodeX_same (df : Option JStr) : ∀ (t : Tree) (ks : List Token) (st : NStack),
    untold (mapNodeX df t ks st) = mapNode df t st
  | .types t e, ks, st => by
    simp only [mapNodeX, mapNode, untold_bind, untold_bare]; rfl
  | .func f items, ks, st => by
    simp only [mapNodeX, mapNode, untold_bind, mapNodesX_same df items]; rfl
  | .in_ f no items, ks, st => by
    simp only [mapNodeX, mapNode, untold_bind, mapNodesX_same df items]; rfl
  | .to_ f lo hi, ks, st => by
    simp only [mapNodeX, mapNode, untold_bind, untold_bare]; rfl
  | .cmp op l r, ks, st => by
    simp only [mapNodeX, mapNode]
    split
    · simp only [untold_bind, untold_bare, mapNodeX_same df l]; rfl
    · split
      · simp only [untold_bind, untold_bare, mapNodeX_same df r]; rfl
      · simp only [untold_bind, mapNodeX_same df l, mapNodeX_same df r]; rfl
  | .arith op l r, ks, st => by
    simp only [mapNodeX, mapNode]
    split
    · simp only [untold_bind, mapNodeX_same df l, mapNodeX_same df r]; rfl
    · split
      · simp only [untold_bind, untold_bare, mapNodeX_same df l]; rfl
      · split
        · simp only [untold_bind, untold_bare, mapNodeX_same df r]; rfl
        · match st with
          | [] => rfl
          | [_] => rfl
          | _ :: _ :: _ => rfl
  | .paren t, ks, st => by rw [mapNodeX, mapNode]; rfl
  | .not_ t, ks, st => by rw [mapNodeX, mapNode]; rfl
  | .neg t, ks, st => by rw [mapNodeX, mapNode]; rfl
  | .bin c l r, ks, st => by rw [mapNodeX, mapNode]; rfl
  | .array f o items, ks, st => by rw [mapNodeX, mapNode]; rfl
theorem mapNodesX_same (df : Option JStr) : ∀ (ts : List Tree) (ks : List Token) (st : NStack),
    untold (mapNodesX df ts ks st) = mapNodes df ts st
  | [], ks, st => by rw [mapNodesX, mapNodes]; rfl
  | t :: ts, ks, st => by
    simp only [mapNodesX, mapNodes, untold_bind, mapNodeX_same df t, mapNodesX_same df ts]; rfl
end

theorem exitMappedX_same (df : Option JStr) (t : Tree) (ks : List Token) (s : LState) :
    untold (exitMappedX df t ks s) = exitMapped df t s := by
  simp only [exitMappedX, exitMapped, untold_bind, mapNodeX_same]; rfl

theorem exitArrayX_same (df : Option JStr) (f : Token) (op : ArrOp) (items : List Tree) (ks : List Token) (s : LState) :
    untold (exitArrayX df f op items ks s) = exitArray df f op items s := by
  simp only [exitArrayX, exitArray, untold_bind, mapNodesX_same]; rfl

theorem exitNotX_same (t : Tree) (ks : List Token) (s : LState) : untold (exitNotX t ks s) = exitNot s := by
  unfold exitNotX exitNot
  cases s.stack with
  | cons n st => rfl
  | nil =>
    cases s.last with
    | none => rfl
    | some u => simp only [untold_bind, untold_bare]; rfl

theorem exitBinX_same (c : Bool) (t : Tree) (ks : List Token) (s : LState) : untold (exitBinX c t ks s) = exitBin c s := by
  unfold exitBinX exitBin
  match s.stack with
  | [] => rfl
  | [_] => rfl
  | _ :: _ :: _ => rfl

mutual
theorem walkX_same (df : Option JStr) : ∀ (t : Tree) (ks : List Token) (s : LState), untold (walkX df t ks s) = walk df t s
  | .paren t, ks, s => by simp only [walkX, walk, walkX_same df t]
  | .not_ t, ks, s => by simp only [walkX, walk, untold_bind, walkX_same df t, exitNotX_same]
  | .cmp op l r, ks, s => by
    simp only [walkX, walk, untold_bind, walkX_same df l, walkX_same df r, exitMappedX_same]
  | .neg t, ks, s => by simp only [walkX, walk, untold_bind, walkX_same df t, untold_bare]
  | .arith op l r, ks, s => by
    simp only [walkX, walk, untold_bind, walkX_same df l, walkX_same df r, exitMappedX_same]
  | .func f items, ks, s => by simp only [walkX, walk, untold_bind, walkAllX_same df items, exitMappedX_same]
  | .bin c l r, ks, s => by
    simp only [walkX, walk, untold_bind, walkX_same df l, walkX_same df r, exitBinX_same]
  | .types t e, ks, s => by simp only [walkX, walk, untold_ok]
  | .to_ f lo hi, ks, s => by simp only [walkX, walk, exitMappedX_same]
  | .in_ f no items, ks, s => by simp only [walkX, walk, untold_bind, walkAllX_same df items, exitMappedX_same]
  | .array f op items, ks, s => by simp only [walkX, walk, untold_bind, walkAllX_same df items, exitArrayX_same]
theorem walkAllX_same (df : Option JStr) : ∀ (ts : List Tree) (ks : List Token) (s : LState),
    untold (walkAllX df ts ks s) = walkAll df ts s
  | [], ks, s => by simp only [walkAllX, walkAll, untold_ok]
  | t :: ts, ks, s => by simp only [walkAllX, walkAll, untold_bind, walkX_same df t, walkAllX_same df ts]
end

theorem exitParseX_same (ks : List Token) (s : LState) : untold (exitParseX ks s) = exitParse s := by
  unfold exitParseX
  split
  · rename_i h; rw [h]; rfl
  · exact untold_bare _

theorem parseTold_same (s : JStr) (df : Option JStr) : untold (parseTold s df) = parseAny s df := by
  unfold parseTold
  have h := parseVerbatim_common s df
  generalize parseVerbatim .common s df = x at h
  generalize parseAny s df = y at h
  cases h with
  | error e m => rfl
  | ok h => exact congrArg Except.ok h.1

theorem parseTold_ok {s : JStr} {df : Option JStr} {n : Node} (h : parseAny s df = .ok n) : parseTold s df = .ok n := by
  rw [← parseTold_same] at h
  cases e : parseTold s df with
  | ok m => rw [e] at h; exact congrArg _ (Except.ok.inj h)
  | error f => rw [e] at h; cases h

end BoolParser
