import Verif.Lemmas.Verbatim
import Verif.Lemmas.Locale
import Verif.Lemmas.AnySim
/-!
# The listener with texts and names against the listener of `Model/Recovery.lean` (for C87, C102)
-/

namespace BoolParser
open Spec

/-- The same failure, or related results. -/
inductive TRel {α β : Type} (Q : α → β → Prop) : Told α → Result β → Prop
  | error (e : Exn) (m : Option JStr) : TRel Q (.error ⟨e, m⟩) (.error e)
  | ok {a : α} {b : β} : Q a b → TRel Q (.ok a) (.ok b)

theorem TRel.bind {α β γ δ : Type} {Q : α → β → Prop} {S : γ → δ → Prop} {x : Told α} {y : Result β}
    {f : α → Told γ} {g : β → Result δ} (h : TRel Q x y) (hf : ∀ a b, Q a b → TRel S (f a) (g b)) :
    TRel S (x >>= f) (y >>= g) := by
  cases h with
  | error e m => exact .error e m
  | ok h => exact hf _ _ h

theorem TRel.of {α β : Type} {Q : α → β → Prop} {x : Result α} {y : Result β} (h : RRel Q x y) : TRel Q (bare x) y := by
  cases h with
  | error e => exact .error e none
  | ok h => exact .ok h

theorem trel_bare {α : Type} (x : Result α) : TRel (· = ·) (bare x) x := by
  cases x with
  | error e => exact .error e none
  | ok a => exact .ok rfl

theorem bind_told {α β : Type} {x : Told α} {f : α → Told β} {b : β} (h : (x >>= f) = .ok b) :
    ∃ a, x = .ok a ∧ f a = .ok b := by
  cases x with
  | error e => cases h
  | ok a => exact ⟨a, rfl, h⟩

theorem mapNodeV_arith (loc : Locale) (df : Option JStr) (x : JStr) (op : ArithOp) (l r : VTree) (st : List NNode) :
    mapNodeV loc df (.arith x op l r) st =
    if l.erase.isTypes && r.erase.isTypes then do
      let (a, st) ← mapNodeV loc df l st
      let (b, st) ← mapNodeV loc df r st
      pure (.arith op a b, st)
    else if l.erase.isTypes then do
      let (a, st) ← mapNodeV loc df l st
      let (b, st) ← bare (popNN st)
      pure (.arith op a b, st)
    else if r.erase.isTypes then do
      let (b, st) ← mapNodeV loc df r st
      let (a, st) ← bare (popNN st)
      pure (.arith op a b, st)
    else
      match st with
      | b :: a :: st => .ok (.arith op a b, st)
      | _ => tell .invalidExpression (expressionText x) := by
  cases st with
  | nil => rw [mapNodeV]; intros; contradiction
  | cons b st =>
    cases st with
    | nil => rw [mapNodeV]; intro _ _ _ h; simp at h
    | cons a st => rw [mapNodeV]

variable {loc : Locale} {k : Prop} {df : Option JStr} {Q : JStr → Prop}

mutual
theorem mapNodeV_rel : (t : VTree) → t.All Q (KnownName loc k) → {st : List NNode} → {st' : NStack} →
    List.Forall₂ (Stands k) st st' →
    TRel (fun p q => Stands k p.1 q.1 ∧ List.Forall₂ (Stands k) p.2 q.2) (mapNodeV loc df t st) (mapNodeR df t.erase st')
  | .types t e, _, st, st', h => by
    rw [mapNodeV, VTree.erase, mapNodeR]
    exact (TRel.of (is_leaf (k := k) t e)).bind fun a b hab => .ok ⟨hab, h⟩
  | .func x f name sh items, ht, st, st', h => by
    rw [VTree.All] at ht
    rw [mapNodeV, VTree.erase, mapNodeR]
    cases sh with
    | absent => exact .error _ _
    | childless => exact .error _ _
    | failed => exact .error _ _
    | complete =>
      simp only [ListShape.noException, ht.2.1.1 f rfl]
      refine (mapNodesV_rel items ht.2.2 h).bind fun a b hab => .ok ⟨⟨?_, ?_⟩, hab.2⟩
      · rw [NNode.erase, hab.1.1]
      · intro hk; rw [NNode.sure]; exact hab.1.2 hk
  | .in_ x f neg sh items, ht, st, st', h => by
    rw [VTree.All] at ht
    rw [mapNodeV, VTree.erase, mapNodeR]
    refine (trel_bare sh.children).bind fun _ _ _ => ?_
    refine (mapNodesV_rel items ht.2 h).bind fun a b hab => .ok ⟨?_, hab.2⟩
    cases neg
    · exact ⟨by simp [NNode.erase, hab.1.1], fun hk => by simp [NNode.sure, hab.1.2 hk]⟩
    · exact ⟨by simp [NNode.erase, hab.1.1], fun hk => by simp [NNode.sure, hab.1.2 hk]⟩
  | .to_ x f lo hi, ht, st, st', h => by
    rw [mapNodeV, VTree.erase, mapNodeR]
    refine (trel_bare (convertValue lo.text (tokType lo))).bind fun a b hab => ?_
    subst hab
    rcases hi with _ | ⟨u, y⟩
    · exact .error _ _
    · refine (trel_bare (convertValue y (tokType u))).bind fun c e hce => ?_
      subst hce
      exact .ok ⟨⟨by simp [NNode.erase], fun _ => by simp [NNode.sure]⟩, h⟩
  | .cmp x op l r, ht, st, st', h => by
    rw [VTree.All] at ht
    rw [mapNodeV, VTree.erase, mapNodeR, erase_stack h]
    split
    · exact (mapNodeV_rel l ht.2.1 h).bind fun a b hab => (TRel.of (pop_rel hab.2)).bind fun c e hce =>
        .ok ⟨is_cmp hab.1 hce.1 _ _, hce.2⟩
    · split
      · exact (mapNodeV_rel r ht.2.2 h).bind fun a b hab => (TRel.of (pop_rel hab.2)).bind fun c e hce =>
          .ok ⟨is_cmp hce.1 hab.1 _ _, hce.2⟩
      · exact (mapNodeV_rel r ht.2.2 h).bind fun a b hab => (mapNodeV_rel l ht.2.1 hab.2).bind fun c e hce =>
          .ok ⟨is_cmp hce.1 hab.1 _ _, hce.2⟩
  | .arith x op l r, ht, st, st', h => by
    rw [VTree.All] at ht
    rw [mapNodeV_arith, VTree.erase, mapNodeR_arith]
    split
    · exact (mapNodeV_rel l ht.2.1 h).bind fun a b hab => (mapNodeV_rel r ht.2.2 hab.2).bind fun c e hce =>
        .ok ⟨is_arith hab.1 hce.1 _, hce.2⟩
    · split
      · exact (mapNodeV_rel l ht.2.1 h).bind fun a b hab => (TRel.of (pop_rel hab.2)).bind fun c e hce =>
          .ok ⟨is_arith hab.1 hce.1 _, hce.2⟩
      · split
        · exact (mapNodeV_rel r ht.2.2 h).bind fun a b hab => (TRel.of (pop_rel hab.2)).bind fun c e hce =>
            .ok ⟨is_arith hce.1 hab.1 _, hce.2⟩
        · cases h with
          | nil => exact .error _ _
          | cons h1 hs =>
            cases hs with
            | nil => exact .error _ _
            | cons h2 hs => exact .ok ⟨is_arith h2 h1 _, hs⟩
  | .paren _ _, _, st, st', h => by rw [mapNodeV, VTree.erase, mapNodeR]; exact .error _ _
  | .not_ _ _, _, st, st', h => by rw [mapNodeV, VTree.erase, mapNodeR]; exact .error _ _
  | .neg _ _, _, st, st', h => by rw [mapNodeV, VTree.erase, mapNodeR]; exact .error _ _
  | .bin _ _ _ _, _, st, st', h => by rw [mapNodeV, VTree.erase, mapNodeR]; exact .error _ _
  | .array _ _ _ _ _ _, _, st, st', h => by rw [mapNodeV, VTree.erase, mapNodeR]; exact .error _ _
  | .bad _, _, st, st', h => by rw [mapNodeV, VTree.erase, mapNodeR]; exact .error _ _
theorem mapNodesV_rel : (ts : List VTree) → VTree.AllAll Q (KnownName loc k) ts → {st : List NNode} → {st' : NStack} →
    List.Forall₂ (Stands k) st st' →
    TRel (fun p q => StandsAll k p.1 q.1 ∧ List.Forall₂ (Stands k) p.2 q.2) (mapNodesV loc df ts st)
      (mapNodesR df (VTree.eraseAll ts) st')
  | [], _, st, st', h => by
    rw [mapNodesV, VTree.eraseAll, mapNodesR]
    exact .ok ⟨⟨by simp [NNode.eraseAll], fun _ => by simp [NNode.sureAll]⟩, h⟩
  | t :: ts, ht, st, st', h => by
    rw [VTree.AllAll] at ht
    rw [mapNodesV, VTree.eraseAll, mapNodesR]
    exact (mapNodeV_rel t ht.1 h).bind fun a b hab => (mapNodesV_rel ts ht.2 hab.2).bind fun c e hce =>
      .ok ⟨⟨by simp [NNode.eraseAll, hab.1.1, hce.1.1], fun hk => by
        simp [NNode.sureAll, hab.1.2 hk, hce.1.2 hk]⟩, hce.2⟩
end

theorem exitMappedV_rel {t : VTree} (ht : t.All Q (KnownName loc k)) {s : NState} {s' : LState} (h : SameState k s s') :
    TRel (SameState k) (exitMappedV loc df t s) (exitMappedR df t.erase s') :=
  (mapNodeV_rel t ht h.1).bind fun _ _ hab => .ok ⟨.cons hab.1 hab.2, h.2⟩

theorem negLeafV_rel {e : VTree} {s : NState} {s' : LState} (h : SameState k s s') :
    TRel (SameState k)
      (match e with
        | .types t em => do
          let n ← bare (mapTypes df t em)
          pure { s with stack := .neg (.leaf n) :: s.stack }
        | _ => .error ⟨.classCast, none⟩ : Told NState)
      (match e.erase with
        | .types t em => do
          let n ← mapTypes df t em
          pure { s' with stack := .neg n :: s'.stack }
        | _ => .error .classCast : Result LState) := by
  cases e <;> simp only [VTree.erase] <;> first
    | exact .error _ _
    | exact (TRel.of (is_leaf (k := k) _ _)).bind fun a b hab => .ok ⟨.cons ⟨by rw [NNode.erase, hab.1], fun hk => by
        rw [NNode.sure]; exact hab.2 hk⟩ h.1, h.2⟩

theorem exitNegV_rel {e : VTree} {s : NState} {s' : LState} (h : SameState k s s') :
    TRel (SameState k) (exitNegV df e s) (exitNegR df e.erase s') := by
  have hl := negLeafV_rel (df := df) (e := e) h
  obtain ⟨st, last, count⟩ := s
  obtain ⟨st', last', count'⟩ := s'
  obtain ⟨h1, h2, h3⟩ := h
  simp only at h1 h2 h3
  unfold exitNegV exitNegR
  cases h1 with
  | nil => exact hl
  | @cons n m ns ms h1 hs =>
    simp only [h1.1]
    split
    · exact .ok ⟨.cons ⟨by rw [NNode.erase, h1.1], fun hk => by rw [NNode.sure]; exact h1.2 hk⟩ hs, h2, h3⟩
    · exact hl

theorem exitArrayV_rel {f : Token} {op : ArrOp} {name : JStr} {sh : ListShape} {items : List VTree} {s : NState} {s' : LState}
    (hi : VTree.AllAll Q (KnownName loc k) items) (hn : KnownName loc k op.kind name) (h : SameState k s s') :
    TRel (SameState k) (exitArrayV loc df f op name sh items s) (exitArrayR df f op sh (VTree.eraseAll items) s') :=
  (trel_bare sh.children).bind fun _ _ _ =>
  (mapNodesV_rel items hi h.1).bind fun _ _ hab => .ok ⟨.cons ⟨by simp [NNode.erase, hab.1.1], fun hk => by
    rw [NNode.sure]; exact ⟨hn.2 hk op rfl, hab.1.2 hk⟩⟩ hab.2, h.2⟩

theorem exitNotV_rel {x : JStr} {s : NState} {s' : LState} (h : SameState k s s') :
    TRel (SameState k) (exitNotV x s) (exitNot s') := by
  obtain ⟨st, last, count⟩ := s
  obtain ⟨st', last', count'⟩ := s'
  obtain ⟨h1, h2, h3⟩ := h
  simp only at h1 h2 h3
  unfold exitNotV exitNot
  cases h1 with
  | cons h1 hs =>
    exact .ok ⟨.cons ⟨by rw [NNode.erase, h1.1], fun hk => by rw [NNode.sure]; exact h1.2 hk⟩ hs, h2, h3⟩
  | nil =>
    subst h2
    cases last with
    | none => exact .error _ _
    | some t =>
      refine (trel_bare (convertValue t.text (tokType t))).bind fun a b hab => ?_
      subst hab
      exact .ok ⟨.cons ⟨by simp [NNode.erase], fun _ => by simp [NNode.sure]⟩ .nil, rfl, h3⟩

theorem exitBinV_rel {x : JStr} {c : Bool} {s : NState} {s' : LState} (h : SameState k s s') :
    TRel (SameState k) (exitBinV x c s) (exitBin c s') := by
  obtain ⟨st, last, count⟩ := s
  obtain ⟨st', last', count'⟩ := s'
  obtain ⟨h1, h2, h3⟩ := h
  simp only at h1 h2 h3
  unfold exitBinV exitBin
  cases h1 with
  | nil => exact .error _ _
  | cons h1 hs =>
    cases hs with
    | nil => exact .error _ _
    | cons h4 hs =>
      refine .ok ⟨.cons ?_ hs, h2, h3⟩
      cases c
      · exact ⟨by simp [NNode.erase, h1.1, h4.1], fun hk => by simp [NNode.sure, h1.2 hk, h4.2 hk]⟩
      · exact ⟨by simp [NNode.erase, h1.1, h4.1], fun hk => by simp [NNode.sure, h1.2 hk, h4.2 hk]⟩

mutual
theorem walkV_rel : (t : VTree) → t.All Q (KnownName loc k) → {s : NState} → {s' : LState} → SameState k s s' →
    TRel (SameState k) (walkV loc df t s) (walkR df t.erase s')
  | .paren x t, ht, s, s', h => by
    rw [VTree.All] at ht
    rw [walkV, VTree.erase, walkR]; exact walkV_rel t ht.2 h
  | .not_ x t, ht, s, s', h => by
    rw [VTree.All] at ht
    rw [walkV, VTree.erase, walkR]
    exact (walkV_rel t ht.2 h).bind fun _ _ h => exitNotV_rel h
  | .cmp x op l r, ht, s, s', h => by
    have ht' := ht
    rw [VTree.All] at ht
    rw [walkV, VTree.erase, walkR]
    exact (walkV_rel l ht.2.1 h).bind fun _ _ h => (walkV_rel r ht.2.2 h).bind fun _ _ h => by
      have := exitMappedV_rel (df := df) ht' h
      rwa [VTree.erase] at this
  | .neg x t, ht, s, s', h => by
    rw [VTree.All] at ht
    rw [walkV, VTree.erase, walkR]
    exact (walkV_rel t ht.2 h).bind fun _ _ h => exitNegV_rel h
  | .arith x op l r, ht, s, s', h => by
    have ht' := ht
    rw [VTree.All] at ht
    rw [walkV, VTree.erase, walkR]
    exact (walkV_rel l ht.2.1 h).bind fun _ _ h => (walkV_rel r ht.2.2 h).bind fun _ _ h => by
      have := exitMappedV_rel (df := df) ht' h
      rwa [VTree.erase] at this
  | .func x f name sh items, ht, s, s', h => by
    have ht' := ht
    rw [VTree.All] at ht
    rw [walkV, VTree.erase, walkR]
    exact (walkAllV_rel items ht.2.2 h).bind fun _ _ h => by
      have := exitMappedV_rel (df := df) ht' h
      rwa [VTree.erase] at this
  | .bin x c l r, ht, s, s', h => by
    rw [VTree.All] at ht
    rw [walkV, VTree.erase, walkR]
    exact (walkV_rel l ht.2.1 h).bind fun _ _ h => (walkV_rel r ht.2.2 h).bind fun _ _ h => exitBinV_rel h
  | .types t e, ht, s, s', h => by
    rw [walkV, VTree.erase, walkR]
    exact .ok ⟨h.1, rfl, by simp [h.2.2]⟩
  | .to_ x f lo hi, ht, s, s', h => by
    rw [walkV, VTree.erase, walkR]
    have := exitMappedV_rel (df := df) ht h
    rwa [VTree.erase] at this
  | .in_ x f neg sh items, ht, s, s', h => by
    have ht' := ht
    rw [VTree.All] at ht
    rw [walkV, VTree.erase, walkR]
    exact (walkAllV_rel items ht.2 h).bind fun _ _ h => by
      have := exitMappedV_rel (df := df) ht' h
      rwa [VTree.erase] at this
  | .array x f op name sh items, ht, s, s', h => by
    rw [VTree.All] at ht
    rw [walkV, VTree.erase, walkR]
    exact (walkAllV_rel items ht.2.2 h).bind fun _ _ h => exitArrayV_rel ht.2.2 ht.2.1 h
  | .bad x, ht, s, s', h => by
    rw [walkV, VTree.erase, walkR]
    exact .ok h
theorem walkAllV_rel : (ts : List VTree) → VTree.AllAll Q (KnownName loc k) ts → {s : NState} → {s' : LState} →
    SameState k s s' → TRel (SameState k) (walkAllV loc df ts s) (walkAllR df (VTree.eraseAll ts) s')
  | [], _, s, s', h => by
    rw [walkAllV, VTree.eraseAll, walkAllR]; exact .ok h
  | t :: ts, ht, s, s', h => by
    rw [VTree.AllAll] at ht
    rw [walkAllV, VTree.eraseAll, walkAllR]
    exact (walkV_rel t ht.1 h).bind fun _ _ h => walkAllV_rel ts ht.2 h
end

theorem exitParseV_rel {x : JStr} {s : NState} {s' : LState} (h : SameState k s s') :
    TRel (Stands k) (exitParseV x s) (exitParse s') := by
  obtain ⟨st, last, count⟩ := s
  obtain ⟨st', last', count'⟩ := s'
  obtain ⟨h1, h2, h3⟩ := h
  simp only at h1 h2 h3
  subst h2 h3
  unfold exitParseV exitParse
  cases h1 with
  | cons h1 hs => exact .ok h1
  | nil =>
    cases last with
    | none => exact .error _ _
    | some t =>
      simp only
      split
      · split
        · exact .ok ⟨by simp [NNode.erase], fun _ => by simp [NNode.sure]⟩
        · refine (trel_bare (convertValue t.text .string)).bind fun a b hab => ?_
          subst hab
          exact .ok ⟨by simp [NNode.erase], fun _ => by simp [NNode.sure]⟩
      · exact .error _ _

/-! ## Function names that are not found -/

mutual
theorem walkV_found : (t : VTree) → {s s' : NState} → walkV loc df t s = .ok s' → t.All (fun _ => True) (Found loc)
  | .paren _ t, s, s', h => by
    rw [walkV] at h; rw [VTree.All]; exact ⟨trivial, walkV_found t h⟩
  | .not_ _ t, s, s', h => by
    rw [walkV] at h; rw [VTree.All]
    obtain ⟨a, h1, h2⟩ := bind_told h
    exact ⟨trivial, walkV_found t h1⟩
  | .cmp _ op l r, s, s', h => by
    rw [walkV] at h; rw [VTree.All]
    obtain ⟨a, h1, h2⟩ := bind_told h
    obtain ⟨b, h3, h4⟩ := bind_told h2
    exact ⟨trivial, walkV_found l h1, walkV_found r h3⟩
  | .neg _ t, s, s', h => by
    rw [walkV] at h; rw [VTree.All]
    obtain ⟨a, h1, h2⟩ := bind_told h
    exact ⟨trivial, walkV_found t h1⟩
  | .arith _ op l r, s, s', h => by
    rw [walkV] at h; rw [VTree.All]
    obtain ⟨a, h1, h2⟩ := bind_told h
    obtain ⟨b, h3, h4⟩ := bind_told h2
    exact ⟨trivial, walkV_found l h1, walkV_found r h3⟩
  | .func _ f name sh items, s, s', h => by
    rw [walkV] at h; rw [VTree.All]
    obtain ⟨a, h1, h2⟩ := bind_told h
    refine ⟨trivial, fun _ _ hn => ?_, walkAllV_found items h1⟩
    rw [exitMappedV, mapNodeV, hn] at h2
    cases sh <;> cases h2
  | .bin _ c l r, s, s', h => by
    rw [walkV] at h; rw [VTree.All]
    obtain ⟨a, h1, h2⟩ := bind_told h
    obtain ⟨b, h3, h4⟩ := bind_told h2
    exact ⟨trivial, walkV_found l h1, walkV_found r h3⟩
  | .types t e, s, s', h => by rw [VTree.All]; trivial
  | .to_ _ f lo hi, s, s', h => by rw [VTree.All]; trivial
  | .in_ _ f neg sh items, s, s', h => by
    rw [walkV] at h; rw [VTree.All]
    obtain ⟨a, h1, h2⟩ := bind_told h
    exact ⟨trivial, walkAllV_found items h1⟩
  | .array _ f op name sh items, s, s', h => by
    rw [walkV] at h; rw [VTree.All]
    obtain ⟨a, h1, h2⟩ := bind_told h
    refine ⟨trivial, fun _ hf => ?_, walkAllV_found items h1⟩
    cases op <;> cases hf
  | .bad _, s, s', h => by rw [VTree.All]; trivial
theorem walkAllV_found : (ts : List VTree) → {s s' : NState} → walkAllV loc df ts s = .ok s' →
    VTree.AllAll (fun _ => True) (Found loc) ts
  | [], s, s', h => by rw [VTree.AllAll]; trivial
  | t :: ts, s, s', h => by
    rw [walkAllV] at h; rw [VTree.AllAll]
    obtain ⟨a, h1, h2⟩ := bind_told h
    exact ⟨walkV_found t h1, walkAllV_found ts h2⟩
end

mutual
theorem VTree.All.both {Q Q' Q'' : JStr → Prop} {P P' P'' : TK → JStr → Prop} (hq : ∀ x, Q x → Q' x → Q'' x)
    (hp : ∀ k x, P k x → P' k x → P'' k x) : (t : VTree) → t.All Q P → t.All Q' P' → t.All Q'' P''
  | .paren _ t, h, h' => by rw [VTree.All] at *; exact ⟨hq _ h.1 h'.1, VTree.All.both hq hp t h.2 h'.2⟩
  | .not_ _ t, h, h' => by rw [VTree.All] at *; exact ⟨hq _ h.1 h'.1, VTree.All.both hq hp t h.2 h'.2⟩
  | .neg _ t, h, h' => by rw [VTree.All] at *; exact ⟨hq _ h.1 h'.1, VTree.All.both hq hp t h.2 h'.2⟩
  | .cmp _ _ l r, h, h' => by
    rw [VTree.All] at *
    exact ⟨hq _ h.1 h'.1, VTree.All.both hq hp l h.2.1 h'.2.1, VTree.All.both hq hp r h.2.2 h'.2.2⟩
  | .arith _ _ l r, h, h' => by
    rw [VTree.All] at *
    exact ⟨hq _ h.1 h'.1, VTree.All.both hq hp l h.2.1 h'.2.1, VTree.All.both hq hp r h.2.2 h'.2.2⟩
  | .bin _ _ l r, h, h' => by
    rw [VTree.All] at *
    exact ⟨hq _ h.1 h'.1, VTree.All.both hq hp l h.2.1 h'.2.1, VTree.All.both hq hp r h.2.2 h'.2.2⟩
  | .func _ _ _ _ items, h, h' => by
    rw [VTree.All] at *
    exact ⟨hq _ h.1 h'.1, hp _ _ h.2.1 h'.2.1, VTree.AllAll.both hq hp items h.2.2 h'.2.2⟩
  | .types _ _, _, _ => by rw [VTree.All]; trivial
  | .to_ _ _ _ _, h, h' => by rw [VTree.All] at *; exact hq _ h h'
  | .in_ _ _ _ _ items, h, h' => by
    rw [VTree.All] at *
    exact ⟨hq _ h.1 h'.1, VTree.AllAll.both hq hp items h.2 h'.2⟩
  | .array _ _ _ _ _ items, h, h' => by
    rw [VTree.All] at *
    exact ⟨hq _ h.1 h'.1, hp _ _ h.2.1 h'.2.1, VTree.AllAll.both hq hp items h.2.2 h'.2.2⟩
  | .bad _, h, h' => by rw [VTree.All] at *; exact hq _ h h'
theorem VTree.AllAll.both {Q Q' Q'' : JStr → Prop} {P P' P'' : TK → JStr → Prop} (hq : ∀ x, Q x → Q' x → Q'' x)
    (hp : ∀ k x, P k x → P' k x → P'' k x) : (ts : List VTree) → VTree.AllAll Q P ts → VTree.AllAll Q' P' ts →
    VTree.AllAll Q'' P'' ts
  | [], _, _ => by rw [VTree.AllAll]; trivial
  | t :: ts, h, h' => by
    rw [VTree.AllAll] at *
    exact ⟨VTree.All.both hq hp t h.1 h'.1, VTree.AllAll.both hq hp ts h.2 h'.2⟩
end

end BoolParser
