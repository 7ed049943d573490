import Verif.Lemmas.VerbatimListen
import Verif.Lemmas.WordingTold
/-!
# What the parser says of any text (for C101, C102)
-/

namespace BoolParser
open Spec

/-- The messages of the parser about a context with the text `x`. -/
def Reproof (x m : JStr) : Prop := m = itemText x ∨ m = expressionText x ∨ m = notText x ∨ m = binaryText x

/-- A failure is an InvalidExpressionException about a text with `Q`, or not one of the library's and without message. -/
def SaysV {α : Type} (Q : JStr → Prop) (r : Told α) : Prop :=
  ∀ f, r = .error f → (f.exn = .invalidExpression ∧ ∃ m x, f.message = some m ∧ Q x ∧ Reproof x m) ∨
    (¬ OfLibrary f.exn ∧ f.message = none)

variable {α β : Type} {Q : JStr → Prop}

theorem saysV_ok (a : α) : SaysV Q (.ok a : Told α) := fun _ h => by cases h

theorem saysV_bind {r : Told α} {f : α → Told β} (h : SaysV Q r) (hf : ∀ a, SaysV Q (f a)) : SaysV Q (r >>= f) := by
  cases r with
  | ok a => exact hf a
  | error e => intro g hg; exact h g (congrArg Except.error (Except.error.inj hg))

theorem saysV_bare {r : Result α} (h : Foreign r) : SaysV Q (bare r) := by
  cases r with
  | ok a => exact saysV_ok a
  | error e => intro f hf; cases hf; exact .inr ⟨h.out e rfl, rfl⟩

theorem saysV_tell {x m : JStr} (hx : Q x) (h : Reproof x m) : SaysV Q (tell .invalidExpression m : Told α) := by
  intro f hf; cases hf; exact .inl ⟨rfl, m, x, rfl, hx, h⟩

theorem saysV_error {e : Exn} (h : ¬ OfLibrary e) : SaysV Q (.error ⟨e, none⟩ : Told α) := by
  intro f hf; cases hf; exact .inr ⟨h, rfl⟩

theorem foreign_unquote (s : JStr) : Foreign (unquote s) := by
  unfold unquote; foreign

theorem foreign_convert (s : JStr) (t : DataType) : Foreign (convertValue s t) := by
  unfold convertValue
  cases t <;> simp only
  · split
    · exact foreign_bind (foreign_unquote s) fun _ => foreign_pure _
    · split
      · exact foreign_bind (foreign_unquote s) fun _ => foreign_pure _
      · exact foreign_ok _
  all_goals foreign

theorem foreign_mapTypes (df : Option JStr) (t : Token) (e : Bool) : Foreign (mapTypes df t e) := by
  unfold mapTypes
  split
  · exact foreign_ok _
  · split
    · exact foreign_ok _
    · exact foreign_bind (foreign_convert _ _) fun _ => foreign_pure _

theorem foreign_popNN (st : List NNode) : Foreign (popNN st) := by
  unfold popNN; foreign

theorem foreign_children (sh : ListShape) : Foreign sh.children := by
  cases sh <;> (unfold ListShape.children; foreign)

variable {loc : Locale} {df : Option JStr} {P : TK → JStr → Prop}

mutual
theorem mapNodeV_says : (t : VTree) → t.All Q P → ∀ st, SaysV Q (mapNodeV loc df t st)
  | .types t e, _, st => by
    rw [mapNodeV]
    exact saysV_bind (saysV_bare (foreign_mapTypes df t e)) fun _ => saysV_ok _
  | .func x f name sh items, ht, st => by
    rw [VTree.All] at ht
    rw [mapNodeV]
    cases sh with
    | absent => exact saysV_error (by decide)
    | childless => exact saysV_tell ht.1 (.inr (.inl rfl))
    | failed => exact saysV_tell ht.1 (.inr (.inl rfl))
    | complete =>
      simp only [ListShape.noException]
      split
      · exact saysV_tell ht.1 (.inr (.inl rfl))
      · exact saysV_bind (mapNodesV_says items ht.2.2 st) fun _ => saysV_ok _
  | .in_ x f neg sh items, ht, st => by
    rw [VTree.All] at ht
    rw [mapNodeV]
    exact saysV_bind (saysV_bare (foreign_children sh)) fun _ => saysV_bind (mapNodesV_says items ht.2 st) fun _ => saysV_ok _
  | .to_ x f lo hi, ht, st => by
    rw [mapNodeV]
    refine saysV_bind (saysV_bare (foreign_convert _ _)) fun _ => ?_
    rcases hi with _ | ⟨u, y⟩
    · exact saysV_error (by decide)
    · exact saysV_bind (saysV_bare (foreign_convert _ _)) fun _ => saysV_ok _
  | .cmp x op l r, ht, st => by
    rw [VTree.All] at ht
    rw [mapNodeV]
    split
    · exact saysV_bind (mapNodeV_says l ht.2.1 _) fun _ => saysV_bind (saysV_bare (foreign_popNN _)) fun _ => saysV_ok _
    · split
      · exact saysV_bind (mapNodeV_says r ht.2.2 _) fun _ => saysV_bind (saysV_bare (foreign_popNN _)) fun _ => saysV_ok _
      · exact saysV_bind (mapNodeV_says r ht.2.2 _) fun _ => saysV_bind (mapNodeV_says l ht.2.1 _) fun _ => saysV_ok _
  | .arith x op l r, ht, st => by
    rw [VTree.All] at ht
    rw [mapNodeV_arith]
    split
    · exact saysV_bind (mapNodeV_says l ht.2.1 _) fun _ => saysV_bind (mapNodeV_says r ht.2.2 _) fun _ => saysV_ok _
    · split
      · exact saysV_bind (mapNodeV_says l ht.2.1 _) fun _ => saysV_bind (saysV_bare (foreign_popNN _)) fun _ => saysV_ok _
      · split
        · exact saysV_bind (mapNodeV_says r ht.2.2 _) fun _ => saysV_bind (saysV_bare (foreign_popNN _)) fun _ => saysV_ok _
        · split
          · exact saysV_ok _
          · exact saysV_tell ht.1 (.inr (.inl rfl))
  | .paren _ _, ht, st => by rw [VTree.All] at ht; rw [mapNodeV]; exact saysV_tell ht.1 (.inl rfl)
  | .not_ _ _, ht, st => by rw [VTree.All] at ht; rw [mapNodeV]; exact saysV_tell ht.1 (.inl rfl)
  | .neg _ _, ht, st => by rw [VTree.All] at ht; rw [mapNodeV]; exact saysV_tell ht.1 (.inl rfl)
  | .bin _ _ _ _, ht, st => by rw [VTree.All] at ht; rw [mapNodeV]; exact saysV_tell ht.1 (.inl rfl)
  | .array _ _ _ _ _ _, ht, st => by rw [VTree.All] at ht; rw [mapNodeV]; exact saysV_tell ht.1 (.inl rfl)
  | .bad _, ht, st => by rw [VTree.All] at ht; rw [mapNodeV]; exact saysV_tell ht (.inl rfl)
theorem mapNodesV_says : (ts : List VTree) → VTree.AllAll Q P ts → ∀ st, SaysV Q (mapNodesV loc df ts st)
  | [], _, st => by rw [mapNodesV]; exact saysV_ok _
  | t :: ts, ht, st => by
    rw [VTree.AllAll] at ht
    rw [mapNodesV]
    exact saysV_bind (mapNodeV_says t ht.1 st) fun _ => saysV_bind (mapNodesV_says ts ht.2 _) fun _ => saysV_ok _
end

theorem exitMappedV_says {t : VTree} (ht : t.All Q P) (s : NState) : SaysV Q (exitMappedV loc df t s) :=
  saysV_bind (mapNodeV_says t ht _) fun _ => saysV_ok _

theorem exitNegV_says (e : VTree) (s : NState) : SaysV Q (exitNegV df e s) := by
  have hl : SaysV Q (match e with
      | .types t em => do
        let n ← bare (mapTypes df t em)
        pure { s with stack := .neg (.leaf n) :: s.stack }
      | _ => .error ⟨.classCast, none⟩ : Told NState) := by
    split
    · exact saysV_bind (saysV_bare (foreign_mapTypes _ _ _)) fun _ => saysV_ok _
    · exact saysV_error (by decide)
  unfold exitNegV
  simp only
  split
  · split
    · exact saysV_ok _
    · exact hl
  · exact hl

theorem exitNotV_says {x : JStr} (hx : Q x) (s : NState) : SaysV Q (exitNotV x s) := by
  unfold exitNotV
  split
  · exact saysV_ok _
  · split
    · exact saysV_tell hx (.inr (.inr (.inl rfl)))
    · exact saysV_bind (saysV_bare (foreign_convert _ _)) fun _ => saysV_ok _

theorem exitBinV_says {x : JStr} (hx : Q x) (c : Bool) (s : NState) : SaysV Q (exitBinV x c s) := by
  unfold exitBinV
  split
  · exact saysV_ok _
  · exact saysV_tell hx (.inr (.inr (.inr rfl)))

mutual
theorem walkV_says : (t : VTree) → t.All Q P → ∀ s, SaysV Q (walkV loc df t s)
  | .paren x t, ht, s => by
    rw [VTree.All] at ht; rw [walkV]; exact walkV_says t ht.2 s
  | .not_ x t, ht, s => by
    rw [VTree.All] at ht; rw [walkV]
    exact saysV_bind (walkV_says t ht.2 s) fun _ => exitNotV_says ht.1 _
  | .cmp x op l r, ht, s => by
    have ht' := ht
    rw [VTree.All] at ht; rw [walkV]
    exact saysV_bind (walkV_says l ht.2.1 s) fun _ => saysV_bind (walkV_says r ht.2.2 _) fun _ => exitMappedV_says ht' _
  | .neg x t, ht, s => by
    rw [VTree.All] at ht; rw [walkV]
    exact saysV_bind (walkV_says t ht.2 s) fun _ => exitNegV_says _ _
  | .arith x op l r, ht, s => by
    have ht' := ht
    rw [VTree.All] at ht; rw [walkV]
    exact saysV_bind (walkV_says l ht.2.1 s) fun _ => saysV_bind (walkV_says r ht.2.2 _) fun _ => exitMappedV_says ht' _
  | .func x f name sh items, ht, s => by
    have ht' := ht
    rw [VTree.All] at ht; rw [walkV]
    exact saysV_bind (walkAllV_says items ht.2.2 s) fun _ => exitMappedV_says ht' _
  | .bin x c l r, ht, s => by
    rw [VTree.All] at ht; rw [walkV]
    exact saysV_bind (walkV_says l ht.2.1 s) fun _ => saysV_bind (walkV_says r ht.2.2 _) fun _ => exitBinV_says ht.1 _ _
  | .types t e, ht, s => by rw [walkV]; exact saysV_ok _
  | .to_ x f lo hi, ht, s => by rw [walkV]; exact exitMappedV_says ht _
  | .in_ x f neg sh items, ht, s => by
    have ht' := ht
    rw [VTree.All] at ht; rw [walkV]
    exact saysV_bind (walkAllV_says items ht.2 s) fun _ => exitMappedV_says ht' _
  | .array x f op name sh items, ht, s => by
    rw [VTree.All] at ht; rw [walkV]
    exact saysV_bind (walkAllV_says items ht.2.2 s) fun _ => saysV_bind (saysV_bare (foreign_children sh)) fun _ =>
      saysV_bind (mapNodesV_says items ht.2.2 _) fun _ => saysV_ok _
  | .bad x, ht, s => by rw [walkV]; exact saysV_ok _
theorem walkAllV_says : (ts : List VTree) → VTree.AllAll Q P ts → ∀ s, SaysV Q (walkAllV loc df ts s)
  | [], _, s => by rw [walkAllV]; exact saysV_ok _
  | t :: ts, ht, s => by
    rw [VTree.AllAll] at ht; rw [walkAllV]
    exact saysV_bind (walkV_says t ht.1 s) fun _ => walkAllV_says ts ht.2 _
end

theorem exitParseV_says {x : JStr} (hx : Q x) (s : NState) : SaysV Q (exitParseV x s) := by
  unfold exitParseV
  split
  · exact saysV_ok _
  · split
    · split
      · split
        · exact saysV_ok _
        · exact saysV_bind (saysV_bare (foreign_convert _ _)) fun _ => saysV_ok _
      · exact saysV_tell hx (.inr (.inl rfl))
    · exact saysV_tell hx (.inr (.inl rfl))

end BoolParser
