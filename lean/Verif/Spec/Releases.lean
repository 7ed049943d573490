import Verif.Spec.Kinds
/-!
# Versions with a stage: `1.0-beta`, `2.1-RC3`, `1.4.0-SNAPSHOT`

What the texts of such versions mean and how they are ordered, apart from the model of `ComparableVersion`.
-/

namespace BoolParser.Spec
open BoolParser

/-- The stage of a version; `word` is any other word. -/
inductive Stage where
  | alpha | beta | milestone | rc | snapshot | release | sp
  | word (w : JStr)

/-- From the earliest stage to the latest; other words come after all known stages. -/
def Stage.rank : Stage → ℕ
  | .alpha => 0
  | .beta => 1
  | .milestone => 2
  | .rc => 3
  | .snapshot => 4
  | .release => 5
  | .sp => 6
  | .word _ => 7

/-- Stages are ordered by rank, other words among themselves as texts. -/
def Stage.Before (x y : Stage) : Prop :=
  x.rank < y.rank ∨ ∃ v w, x = .word v ∧ y = .word w ∧ utf16 v < utf16 w

/-- What a word in small letters means. -/
def stageNames : List (JStr × Stage) :=
  [(j!"alpha", .alpha), (j!"beta", .beta), (j!"milestone", .milestone), (j!"rc", .rc), (j!"cr", .rc),
   (j!"snapshot", .snapshot), (j!"ga", .release), (j!"final", .release), (j!"sp", .sp)]

/-- What a letter directly before a number means. -/
def shortNames : List (JStr × Stage) := [(['a'], .alpha), (['b'], .beta), (['m'], .milestone)]

/-- The stage a word in small letters stands for; `digit` tells whether a digit follows immediately. -/
inductive Means : JStr → Bool → Stage → Prop
  | name {w : JStr} {x : Stage} (digit : Bool) : (w, x) ∈ stageNames → Means w digit x
  | short {w : JStr} {x : Stage} : (w, x) ∈ shortNames → Means w true x
  | other {w : JStr} {digit : Bool} : w ∉ stageNames.map Prod.fst → (digit = true → w ∉ shortNames.map Prod.fst) →
      Means w digit (.word w)

/-- The alphabet, a capital letter with its small letter. -/
def alphabet : List (Char × Char) := (j!"ABCDEFGHIJKLMNOPQRSTUVWXYZ").zip j!"abcdefghijklmnopqrstuvwxyz"

/-- `Small w l`: the word `w` of one or more letters, capital or small, is `l` in small letters. -/
def Small (w l : JStr) : Prop :=
  w ≠ [] ∧ List.Forall₂ (fun c s => ∃ p ∈ alphabet, (c = p.1 ∨ c = p.2) ∧ s = p.2) w l

/-- Numbers, a stage, and the number of the build within the stage. -/
structure Release where
  numbers : List ℕ
  stage : Stage
  build : ℕ

/-- A dash or nothing. -/
def Dash (s : JStr) : Prop := s = [] ∨ s = ['-']

/-- The texts of versions: dotted numbers; the same with a word; the same with a word and a number. -/
inductive ReleaseText : JStr → Release → Prop
  | plain {s : JStr} {v : List ℕ} : VersionText s v → ReleaseText s ⟨v, .release, 0⟩
  | staged {s sep w l : JStr} {v : List ℕ} {x : Stage} : VersionText s v → Dash sep → Small w l → Means l false x →
      ReleaseText (s ++ sep ++ w) ⟨v, x, 0⟩
  | numbered {s sep w l p : JStr} {v : List ℕ} {x : Stage} : VersionText s v → Dash sep → Small w l → Means l true x →
      x ≠ .release → IsDigits p → ReleaseText (s ++ sep ++ w ++ p) ⟨v, x, digitsValue p⟩
  | dashed {s sep w l p : JStr} {v : List ℕ} {x : Stage} : VersionText s v → Dash sep → Small w l → Means l false x →
      x ≠ .release → IsDigits p → ReleaseText (s ++ sep ++ w ++ ['-'] ++ p) ⟨v, x, digitsValue p⟩

/-- An earlier version: by the numbers, then by the stage, then by the build. -/
def Release.Before (a b : Release) : Prop :=
  Earlier a.numbers b.numbers ∨ SameVersion a.numbers b.numbers ∧
    (a.stage.Before b.stage ∨ a.stage = b.stage ∧ a.build < b.build)

/-- The same version. -/
def Release.Same (a b : Release) : Prop :=
  SameVersion a.numbers b.numbers ∧ a.stage = b.stage ∧ a.build = b.build

/-- What a comparison operator means for such versions. -/
def ReleaseRel : CmpOp → Release → Release → Prop
  | .eq, a, b => a.Same b
  | .ne, a, b => ¬ a.Same b
  | .lt, a, b => a.Before b
  | .le, a, b => a.Before b ∨ a.Same b
  | .gt, a, b => b.Before a
  | .ge, a, b => b.Before a ∨ a.Same b

end BoolParser.Spec
