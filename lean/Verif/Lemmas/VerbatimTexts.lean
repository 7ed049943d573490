import Verif.Lemmas.VerbatimAgree
import Verif.Lemmas.VerbatimParse
import Verif.Lemmas.RecoveryListen
import Verif.Lemmas.Refusal
/-!
# On texts of the grammar: the messages (for C102)
-/

namespace BoolParser
open Spec

mutual
theorem decor_erase : (t : Tree) → (ks : List Token) → (t.decor ks).erase = t.up
  | .paren t, ks => by simp only [Tree.decor, VTree.erase, Tree.up, decor_erase t]
  | .not_ t, ks => by simp only [Tree.decor, VTree.erase, Tree.up, decor_erase t]
  | .cmp op l r, ks => by simp only [Tree.decor, VTree.erase, Tree.up, decor_erase l, decor_erase r]
  | .neg t, ks => by simp only [Tree.decor, VTree.erase, Tree.up, decor_erase t]
  | .arith op l r, ks => by simp only [Tree.decor, VTree.erase, Tree.up, decor_erase l, decor_erase r]
  | .func f items, ks => by simp only [Tree.decor, VTree.erase, Tree.up, decorAll_erase items]
  | .bin c l r, ks => by simp only [Tree.decor, VTree.erase, Tree.up, decor_erase l, decor_erase r]
  | .types t e, ks => by simp only [Tree.decor, VTree.erase, Tree.up]
  | .to_ f lo hi, ks => by simp only [Tree.decor, VTree.erase, Tree.up]
  | .in_ f no items, ks => by simp only [Tree.decor, VTree.erase, Tree.up, decorAll_erase items]
  | .array f op items, ks => by simp only [Tree.decor, VTree.erase, Tree.up, decorAll_erase items]
theorem decorAll_erase : (ts : List Tree) → (ks : List Token) → VTree.eraseAll (Tree.decorAll ts ks) = Tree.upAll ts
  | [], ks => by simp only [Tree.decorAll, VTree.eraseAll, Tree.upAll]
  | t :: ts, ks => by simp only [Tree.decorAll, VTree.eraseAll, Tree.upAll, decor_erase t, decorAll_erase ts]
end

theorem vParse_of {ts : List Token} {t : Tree} (h : parseTokens ts = some t) :
    vParse ts = some (t.decor ts, textOf ts ++ j!"<EOF>") := by
  obtain ⟨f, hf⟩ := parseTokens_iff.1 h
  obtain ⟨⟨c, hc, hcl, hct⟩, h1⟩ := (v_agree (4 * ts.length + 3)).1 0 [.eof] 0 ts _ (pExpr_before hf) (.inl rfl)
  have hp : parseFuel ts = 4 * ts.length + 3 + 1 := rfl
  rw [vParse, hp, show RState.init ts = .at 0 ts from rfl, h1]
  simp only at hc hct ⊢
  rw [List.append_nil] at hc
  have hm : ∃ p, matchTok (· == .eof) (fun _ => false) (.at 0 []) = some p := ⟨_, rfl⟩
  obtain ⟨p, hp⟩ := hm
  rw [hp]
  rw [hct, ← hc]
  simp only
  rw [show (RState.at 0 []).toks = [] from rfl, textOf_nil, List.append_nil]

/-- The same failure, message and all, or related results. -/
inductive SameTold {α β : Type} (Q : α → β → Prop) : Told α → Told β → Prop
  | error (f : Fault) : SameTold Q (.error f) (.error f)
  | ok {a : α} {b : β} : Q a b → SameTold Q (.ok a) (.ok b)

theorem SameTold.bind {α β γ δ : Type} {Q : α → β → Prop} {S : γ → δ → Prop} {x : Told α} {y : Told β}
    {f : α → Told γ} {g : β → Told δ} (h : SameTold Q x y) (hf : ∀ a b, Q a b → SameTold S (f a) (g b)) :
    SameTold S (x >>= f) (y >>= g) := by
  cases h with
  | error f => exact .error f
  | ok h => exact hf _ _ h

theorem SameTold.of {α β : Type} {Q : α → β → Prop} {x : Result α} {y : Result β} (h : RRel Q x y) :
    SameTold Q (bare x) (bare y) := by
  cases h with
  | error e => exact .error _
  | ok h => exact .ok h

theorem sameTold_bare {α : Type} (x : Result α) : SameTold (· = ·) (bare x) (bare x) := by
  cases x with
  | error e => exact .error _
  | ok a => exact .ok rfl

theorem mapNodeX_arith (df : Option JStr) (op : ArithOp) (l r : Tree) (ks : List Token) (st : NStack) :
    mapNodeX df (.arith op l r) ks st =
    if l.isTypes && r.isTypes then do
      let (a, st) ← mapNodeX df l ks st
      let (b, st) ← mapNodeX df r (ks.drop (l.width + 1)) st
      pure (.arith op a b, st)
    else if l.isTypes then do
      let (a, st) ← mapNodeX df l ks st
      let (b, st) ← bare (popN st)
      pure (.arith op a b, st)
    else if r.isTypes then do
      let (b, st) ← mapNodeX df r (ks.drop (l.width + 1)) st
      let (a, st) ← bare (popN st)
      pure (.arith op a b, st)
    else
      match st with
      | b :: a :: st => .ok (.arith op a b, st)
      | _ => tell .invalidExpression (expressionText ((Tree.arith op l r).textAt ks)) := by
  cases st with
  | nil => rw [mapNodeX]; intros; contradiction
  | cons b st =>
    cases st with
    | nil => rw [mapNodeX]; intro _ _ _ h; simp at h
    | cons a st => rw [mapNodeX]

variable {loc : Locale} {k : Prop} {df : Option JStr} {Q : JStr → Prop}

mutual
theorem mapNodeV_told : (t : Tree) → (ks : List Token) → (t.decor ks).All Q (KnownName loc k) → {st : List NNode} →
    {st' : NStack} → List.Forall₂ (Stands k) st st' →
    SameTold (fun p q => Stands k p.1 q.1 ∧ List.Forall₂ (Stands k) p.2 q.2) (mapNodeV loc df (t.decor ks) st)
      (mapNodeX df t ks st')
  | .types t e, ks, _, st, st', h => by
    rw [Tree.decor, mapNodeV, mapNodeX]
    exact (SameTold.of (is_leaf (k := k) t e)).bind fun a b hab => .ok ⟨hab, h⟩
  | .func f items, ks, ht, st, st', h => by
    rw [Tree.decor, VTree.All] at ht
    rw [Tree.decor, mapNodeV, mapNodeX]
    simp only [ListShape.noException, ht.2.1.1 f rfl]
    refine (mapNodesV_told items _ ht.2.2 h).bind fun a b hab => .ok ⟨⟨?_, ?_⟩, hab.2⟩
    · rw [NNode.erase, hab.1.1]
    · intro hk; rw [NNode.sure]; exact hab.1.2 hk
  | .in_ f neg items, ks, ht, st, st', h => by
    rw [Tree.decor, VTree.All] at ht
    rw [Tree.decor, mapNodeV, mapNodeX]
    refine (mapNodesV_told items _ ht.2 h).bind fun a b hab => .ok ⟨?_, hab.2⟩
    cases neg
    · exact ⟨by simp [NNode.erase, hab.1.1], fun hk => by simp [NNode.sure, hab.1.2 hk]⟩
    · exact ⟨by simp [NNode.erase, hab.1.1], fun hk => by simp [NNode.sure, hab.1.2 hk]⟩
  | .to_ f lo hi, ks, ht, st, st', h => by
    rw [Tree.decor, mapNodeV, mapNodeX]
    refine (sameTold_bare (convertValue lo.text (tokType lo))).bind fun a b hab => ?_
    subst hab
    refine (sameTold_bare (convertValue hi.text (tokType hi))).bind fun c e hce => ?_
    subst hce
    exact .ok ⟨⟨by simp [NNode.erase], fun _ => by simp [NNode.sure]⟩, h⟩
  | .cmp op l r, ks, ht, st, st', h => by
    rw [Tree.decor, VTree.All] at ht
    rw [Tree.decor, mapNodeV, mapNodeX, erase_stack h]
    simp only [decor_erase, up_useStack, up_isTypes, up_startType]
    split
    · exact (mapNodeV_told l _ ht.2.1 h).bind fun a b hab => (SameTold.of (pop_rel hab.2)).bind fun c e hce =>
        .ok ⟨is_cmp hab.1 hce.1 _ _, hce.2⟩
    · split
      · exact (mapNodeV_told r _ ht.2.2 h).bind fun a b hab => (SameTold.of (pop_rel hab.2)).bind fun c e hce =>
          .ok ⟨is_cmp hce.1 hab.1 _ _, hce.2⟩
      · exact (mapNodeV_told r _ ht.2.2 h).bind fun a b hab => (mapNodeV_told l _ ht.2.1 hab.2).bind fun c e hce =>
          .ok ⟨is_cmp hce.1 hab.1 _ _, hce.2⟩
  | .arith op l r, ks, ht, st, st', h => by
    rw [Tree.decor, VTree.All] at ht
    rw [Tree.decor, mapNodeV_arith, mapNodeX_arith]
    simp only [decor_erase, up_isTypes]
    split
    · exact (mapNodeV_told l _ ht.2.1 h).bind fun a b hab => (mapNodeV_told r _ ht.2.2 hab.2).bind fun c e hce =>
        .ok ⟨is_arith hab.1 hce.1 _, hce.2⟩
    · split
      · exact (mapNodeV_told l _ ht.2.1 h).bind fun a b hab => (SameTold.of (pop_rel hab.2)).bind fun c e hce =>
          .ok ⟨is_arith hab.1 hce.1 _, hce.2⟩
      · split
        · exact (mapNodeV_told r _ ht.2.2 h).bind fun a b hab => (SameTold.of (pop_rel hab.2)).bind fun c e hce =>
            .ok ⟨is_arith hce.1 hab.1 _, hce.2⟩
        · cases h with
          | nil => exact .error _
          | cons h1 hs =>
            cases hs with
            | nil => exact .error _
            | cons h2 hs => exact .ok ⟨is_arith h2 h1 _, hs⟩
  | .paren _, ks, _, st, st', h => by rw [Tree.decor, mapNodeV, mapNodeX]; exact .error _
  | .not_ _, ks, _, st, st', h => by rw [Tree.decor, mapNodeV, mapNodeX]; exact .error _
  | .neg _, ks, _, st, st', h => by rw [Tree.decor, mapNodeV, mapNodeX]; exact .error _
  | .bin _ _ _, ks, _, st, st', h => by rw [Tree.decor, mapNodeV, mapNodeX]; exact .error _
  | .array _ _ _, ks, _, st, st', h => by rw [Tree.decor, mapNodeV, mapNodeX]; exact .error _
theorem mapNodesV_told : (ts : List Tree) → (ks : List Token) → VTree.AllAll Q (KnownName loc k) (Tree.decorAll ts ks) →
    {st : List NNode} → {st' : NStack} → List.Forall₂ (Stands k) st st' →
    SameTold (fun p q => StandsAll k p.1 q.1 ∧ List.Forall₂ (Stands k) p.2 q.2) (mapNodesV loc df (Tree.decorAll ts ks) st)
      (mapNodesX df ts ks st')
  | [], ks, _, st, st', h => by
    rw [Tree.decorAll, mapNodesV, mapNodesX]
    exact .ok ⟨⟨by simp [NNode.eraseAll], fun _ => by simp [NNode.sureAll]⟩, h⟩
  | t :: ts, ks, ht, st, st', h => by
    rw [Tree.decorAll, VTree.AllAll] at ht
    rw [Tree.decorAll, mapNodesV, mapNodesX]
    exact (mapNodeV_told t _ ht.1 h).bind fun a b hab => (mapNodesV_told ts _ ht.2 hab.2).bind fun c e hce =>
      .ok ⟨⟨by simp [NNode.eraseAll, hab.1.1, hce.1.1], fun hk => by
        simp [NNode.sureAll, hab.1.2 hk, hce.1.2 hk]⟩, hce.2⟩
end

theorem exitMappedV_told {t : Tree} {ks : List Token} (ht : (t.decor ks).All Q (KnownName loc k)) {s : NState} {s' : LState}
    (h : SameState k s s') : SameTold (SameState k) (exitMappedV loc df (t.decor ks) s) (exitMappedX df t ks s') :=
  (mapNodeV_told t ks ht h.1).bind fun _ _ hab => .ok ⟨.cons hab.1 hab.2, h.2⟩

theorem exitNegV_told {e : Tree} {ks : List Token} {s : NState} {s' : LState} (h : SameState k s s') :
    SameTold (SameState k) (exitNegV df (e.decor ks) s) (bare (exitNeg df e s')) := by
  have hl : SameTold (SameState k)
      (match e.decor ks with
        | .types t em => do
          let n ← bare (mapTypes df t em)
          pure { s with stack := .neg (.leaf n) :: s.stack }
        | _ => .error ⟨.classCast, none⟩ : Told NState)
      (bare (match e with
        | .types t em => do
          let n ← mapTypes df t em
          pure { s' with stack := .neg n :: s'.stack }
        | _ => .error .classCast : Result LState)) := by
    cases e <;> simp only [Tree.decor] <;> first
      | exact .error _
      | skip
    rename_i t em
    have := is_leaf (k := k) (df := df) t em
    generalize mapTypes df t em = m at this
    cases this with
    | error e => exact .error _
    | ok hab =>
      exact .ok ⟨.cons ⟨by rw [NNode.erase, hab.1], fun hk => by rw [NNode.sure]; exact hab.2 hk⟩ h.1, h.2⟩
  obtain ⟨st, last, count⟩ := s
  obtain ⟨st', last', count'⟩ := s'
  obtain ⟨h1, h2, h3⟩ := h
  simp only at h1 h2 h3
  unfold exitNegV exitNeg
  cases h1 with
  | nil => exact hl
  | @cons n m ns ms h1 hs =>
    simp only [h1.1]
    split
    · exact .ok ⟨.cons ⟨by rw [NNode.erase, h1.1], fun hk => by rw [NNode.sure]; exact h1.2 hk⟩ hs, h2, h3⟩
    · exact hl

theorem exitNotV_told {t : Tree} {ks : List Token} {s : NState} {s' : LState} (h : SameState k s s') :
    SameTold (SameState k) (exitNotV (t.textAt ks) s) (exitNotX t ks s') := by
  obtain ⟨st, last, count⟩ := s
  obtain ⟨st', last', count'⟩ := s'
  obtain ⟨h1, h2, h3⟩ := h
  simp only at h1 h2 h3
  unfold exitNotV exitNotX
  cases h1 with
  | cons h1 hs =>
    exact .ok ⟨.cons ⟨by rw [NNode.erase, h1.1], fun hk => by rw [NNode.sure]; exact h1.2 hk⟩ hs, h2, h3⟩
  | nil =>
    subst h2
    cases last with
    | none => exact .error _
    | some t =>
      refine (sameTold_bare (convertValue t.text (tokType t))).bind fun a b hab => ?_
      subst hab
      exact .ok ⟨.cons ⟨by simp [NNode.erase], fun _ => by simp [NNode.sure]⟩ .nil, rfl, h3⟩

theorem exitBinV_told {c : Bool} {t : Tree} {ks : List Token} {s : NState} {s' : LState} (h : SameState k s s') :
    SameTold (SameState k) (exitBinV (t.textAt ks) c s) (exitBinX c t ks s') := by
  obtain ⟨st, last, count⟩ := s
  obtain ⟨st', last', count'⟩ := s'
  obtain ⟨h1, h2, h3⟩ := h
  simp only at h1 h2 h3
  unfold exitBinV exitBinX
  cases h1 with
  | nil => exact .error _
  | cons h1 hs =>
    cases hs with
    | nil => exact .error _
    | cons h4 hs =>
      refine .ok ⟨.cons ?_ hs, h2, h3⟩
      cases c
      · exact ⟨by simp [NNode.erase, h1.1, h4.1], fun hk => by simp [NNode.sure, h1.2 hk, h4.2 hk]⟩
      · exact ⟨by simp [NNode.erase, h1.1, h4.1], fun hk => by simp [NNode.sure, h1.2 hk, h4.2 hk]⟩

mutual
theorem walkV_told : (t : Tree) → (ks : List Token) → (t.decor ks).All Q (KnownName loc k) → {s : NState} → {s' : LState} →
    SameState k s s' → SameTold (SameState k) (walkV loc df (t.decor ks) s) (walkX df t ks s')
  | .paren t, ks, ht, s, s', h => by
    rw [Tree.decor, VTree.All] at ht
    rw [Tree.decor, walkV, walkX]; exact walkV_told t _ ht.2 h
  | .not_ t, ks, ht, s, s', h => by
    rw [Tree.decor, VTree.All] at ht
    rw [Tree.decor, walkV, walkX]
    exact (walkV_told t _ ht.2 h).bind fun _ _ h => exitNotV_told h
  | .cmp op l r, ks, ht, s, s', h => by
    have ht' := ht
    rw [Tree.decor, VTree.All] at ht
    rw [Tree.decor, walkV, walkX]
    exact (walkV_told l _ ht.2.1 h).bind fun _ _ h => (walkV_told r _ ht.2.2 h).bind fun _ _ h => by
      have := exitMappedV_told (df := df) ht' h
      rwa [Tree.decor] at this
  | .neg t, ks, ht, s, s', h => by
    rw [Tree.decor, VTree.All] at ht
    rw [Tree.decor, walkV, walkX]
    exact (walkV_told t _ ht.2 h).bind fun _ _ h => exitNegV_told h
  | .arith op l r, ks, ht, s, s', h => by
    have ht' := ht
    rw [Tree.decor, VTree.All] at ht
    rw [Tree.decor, walkV, walkX]
    exact (walkV_told l _ ht.2.1 h).bind fun _ _ h => (walkV_told r _ ht.2.2 h).bind fun _ _ h => by
      have := exitMappedV_told (df := df) ht' h
      rwa [Tree.decor] at this
  | .func f items, ks, ht, s, s', h => by
    have ht' := ht
    rw [Tree.decor, VTree.All] at ht
    rw [Tree.decor, walkV, walkX]
    exact (walkAllV_told items _ ht.2.2 h).bind fun _ _ h => by
      have := exitMappedV_told (df := df) ht' h
      rwa [Tree.decor] at this
  | .bin c l r, ks, ht, s, s', h => by
    rw [Tree.decor, VTree.All] at ht
    rw [Tree.decor, walkV, walkX]
    exact (walkV_told l _ ht.2.1 h).bind fun _ _ h => (walkV_told r _ ht.2.2 h).bind fun _ _ h => exitBinV_told h
  | .types t e, ks, ht, s, s', h => by
    rw [Tree.decor, walkV, walkX]
    exact .ok ⟨h.1, rfl, by simp [h.2.2]⟩
  | .to_ f lo hi, ks, ht, s, s', h => by
    have := exitMappedV_told (df := df) ht h
    rw [Tree.decor] at this
    rw [Tree.decor, walkV, walkX]
    exact this
  | .in_ f neg items, ks, ht, s, s', h => by
    have ht' := ht
    rw [Tree.decor, VTree.All] at ht
    rw [Tree.decor, walkV, walkX]
    exact (walkAllV_told items _ ht.2 h).bind fun _ _ h => by
      have := exitMappedV_told (df := df) ht' h
      rwa [Tree.decor] at this
  | .array f op items, ks, ht, s, s', h => by
    rw [Tree.decor, VTree.All] at ht
    rw [Tree.decor, walkV, walkX]
    exact (walkAllV_told items _ ht.2.2 h).bind fun _ _ h =>
      (mapNodesV_told items _ ht.2.2 h.1).bind fun _ _ hab => .ok ⟨.cons ⟨by simp [NNode.erase, hab.1.1], fun hk => by
        rw [NNode.sure]; exact ⟨ht.2.1.2 hk op rfl, hab.1.2 hk⟩⟩ hab.2, h.2⟩
theorem walkAllV_told : (ts : List Tree) → (ks : List Token) → VTree.AllAll Q (KnownName loc k) (Tree.decorAll ts ks) →
    {s : NState} → {s' : LState} → SameState k s s' →
    SameTold (SameState k) (walkAllV loc df (Tree.decorAll ts ks) s) (walkAllX df ts ks s')
  | [], ks, _, s, s', h => by
    rw [Tree.decorAll, walkAllV, walkAllX]; exact .ok h
  | t :: ts, ks, ht, s, s', h => by
    rw [Tree.decorAll, VTree.AllAll] at ht
    rw [Tree.decorAll, walkAllV, walkAllX]
    exact (walkV_told t _ ht.1 h).bind fun _ _ h => walkAllV_told ts _ ht.2 h
end

theorem exitParseV_told {ks : List Token} {s : NState} {s' : LState} (h : SameState k s s') :
    SameTold (Stands k) (exitParseV (textOf ks ++ j!"<EOF>") s) (exitParseX ks s') := by
  have ht : ks.flatMap Token.text = textOf ks := by rw [textOf, List.flatMap_def]
  obtain ⟨st, last, count⟩ := s
  obtain ⟨st', last', count'⟩ := s'
  obtain ⟨h1, h2, h3⟩ := h
  simp only at h1 h2 h3
  subst h2 h3
  unfold exitParseV exitParseX exitParse
  rw [ht]
  cases h1 with
  | cons h1 hs => exact .ok h1
  | nil =>
    cases last with
    | none => exact .error _
    | some t =>
      simp only
      split
      · split
        · exact .ok ⟨by simp [NNode.erase], fun _ => by simp [NNode.sure]⟩
        · have hq := convert_quiet t.text .string
          generalize convertValue t.text .string = r at hq
          cases r with
          | ok v => exact .ok ⟨by simp [NNode.erase], fun _ => by simp [NNode.sure]⟩
          | error e =>
            cases e <;> first | exact absurd rfl hq | exact .error _
      · exact .error _

/-- On a text of the grammar: the listener of `Model/Wording.lean` on the tree of the grammar. -/
theorem parseVerbatim_gram {s : JStr} {t : Tree} (h : parseTokens (lex s) = some t) (df : Option JStr) :
    SameTold (Stands True) (parseVerbatim .common s df) (walkX df t (lex s) LState.init >>= exitParseX (lex s)) := by
  have h1 := vParse_of h
  unfold parseVerbatim
  rw [h1]
  have ha := (vParse_all h1).1
  have hk : (t.decor (lex s)).All (Quotes ((lex s).map Token.text)) (KnownName .common True) := by
    refine VTree.All.both (fun _ h _ => h) ?_ _ ha ha
    rintro q y ⟨u, hu, rfl, rfl⟩ _
    by_cases hn : u.kind.isName = true
    · exact fine_common (tokens_table s u hu hn)
    · refine ⟨fun f e => absurd (by rw [e]; rfl) hn, fun _ o e => absurd (by rw [e]; cases o <;> rfl) hn⟩
  exact (walkV_told t (lex s) hk (s := ⟨[], none, 0⟩) (s' := LState.init) ⟨.nil, rfl, rfl⟩).bind fun _ _ h =>
    exitParseV_told h

theorem parseTold_gram {s : JStr} {t : Tree} (h : parseTokens (lex s) = some t) (df : Option JStr) :
    parseTold s df = (walkX df t (lex s) LState.init >>= exitParseX (lex s)) := by
  have h := parseVerbatim_gram h df
  unfold parseTold
  generalize parseVerbatim .common s df = x at h
  generalize (walkX df t (lex s) LState.init >>= exitParseX (lex s)) = y at h
  cases h with
  | error f => rfl
  | ok h => exact congrArg Except.ok h.1

end BoolParser
