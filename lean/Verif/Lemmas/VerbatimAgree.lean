import Verif.Lemmas.Verbatim
import Verif.Lemmas.RecoveryAgree
/-!
# On texts of the grammar: the tree with the texts (for C87, C102)
-/

namespace BoolParser
open Spec

/-- The text of the token at `i`. -/
def nameAt (i : Nat) (ks : List Token) : JStr := ((ks.drop i).head?.map Token.text).getD []

mutual
/-- The tree with the texts of its contexts; `ks` are the tokens from the first of the tree on. -/
def Tree.decor : Tree → List Token → VTree
  | .paren t, ks => .paren ((Tree.paren t).textAt ks) (t.decor (ks.drop 1))
  | .not_ t, ks => .not_ ((Tree.not_ t).textAt ks) (t.decor (ks.drop 1))
  | .cmp op l r, ks => .cmp ((Tree.cmp op l r).textAt ks) op (l.decor ks) (r.decor (ks.drop (l.width + 1)))
  | .neg t, ks => .neg ((Tree.neg t).textAt ks) (t.decor (ks.drop 1))
  | .arith op l r, ks => .arith ((Tree.arith op l r).textAt ks) op (l.decor ks) (r.decor (ks.drop (l.width + 1)))
  | .func f items, ks => .func ((Tree.func f items).textAt ks) f (nameAt 0 ks) .complete (Tree.decorAll items (ks.drop 2))
  | .bin c l r, ks => .bin ((Tree.bin c l r).textAt ks) c (l.decor ks) (r.decor (ks.drop (l.width + 1)))
  | .types t e, _ => .types t e
  | .to_ f lo hi, ks => .to_ ((Tree.to_ f lo hi).textAt ks) f lo (some (hi, hi.text))
  | .in_ f no items, ks =>
    .in_ ((Tree.in_ f no items).textAt ks) f no .complete (Tree.decorAll items (ks.drop (if no then 4 else 3)))
  | .array f op items, ks =>
    .array ((Tree.array f op items).textAt ks) f op (nameAt 1 ks) .complete (Tree.decorAll items (ks.drop 3))
/-- Of a list of items, each followed by one token. -/
def Tree.decorAll : List Tree → List Token → List VTree
  | [], _ => []
  | t :: ts, ks => t.decor ks :: Tree.decorAll ts (ks.drop (t.width + 1))
end

/-- The tokens `ts` start with those of the tree `x.1`, and `x.2` follow. -/
def VReads (ts : List Token) (x : Tree × List Token) : Prop :=
  ∃ c, ts = c ++ x.2 ∧ c.length = x.1.width ∧ (x.1.decor ts).text = textOf c

theorem textOf_append (a b : List Token) : textOf (a ++ b) = textOf a ++ textOf b := by
  simp [textOf]

theorem textOf_cons (a : Token) (b : List Token) : textOf (a :: b) = a.text ++ textOf b := by
  simp [textOf]

theorem textOf_nil : textOf [] = [] := rfl

theorem textAt_of {t : Tree} {c r : List Token} (h : c.length = t.width) : t.textAt (c ++ r) = textOf c := by
  rw [Tree.textAt, ← h, List.take_left, textOf, List.flatMap_def]

theorem drop_of {c : List Token} {n : Nat} (h : c.length = n) (o : Token) (r : List Token) : (c ++ o :: r).drop (n + 1) = r := by
  subst h
  rw [← List.drop_drop, List.drop_left]; rfl

theorem decor_mk {b : BinTok} {l r : Tree} {c0 c : List Token} {o : Token} {rest : List Token} (h0 : c0.length = l.width)
    (ht : (l.decor (c0 ++ o :: (c ++ rest))).text = textOf c0) (h : c.length = r.width)
    (hr : (r.decor (c ++ rest)).text = textOf c) :
    (b.mk l r).decor (c0 ++ o :: (c ++ rest)) = b.mkV o.text (l.decor (c0 ++ o :: (c ++ rest))) (r.decor (c ++ rest)) ∧
      (c0 ++ o :: c).length = (b.mk l r).width ∧
      ((b.mk l r).decor (c0 ++ o :: (c ++ rest))).text = textOf (c0 ++ o :: c) := by
  have hw : (c0 ++ o :: c).length = (b.mk l r).width := by
    cases b <;> simp [BinTok.mk, Tree.width, h0, h] <;> omega
  have e : c0 ++ o :: (c ++ rest) = (c0 ++ o :: c) ++ rest := by simp
  have hx : (b.mk l r).textAt (c0 ++ o :: (c ++ rest)) = textOf (c0 ++ o :: c) := by rw [e, textAt_of hw]
  have hd := drop_of h0 o (c ++ rest)
  have hs : textOf (c0 ++ o :: c) = textOf c0 ++ o.text ++ textOf c := by simp [textOf]
  refine ⟨?_, hw, ?_⟩
  · cases b <;> simp only [BinTok.mk, BinTok.mkV, Tree.decor, hd, ht, hr] <;>
      (simp only [BinTok.mk] at hx; rw [hx, hs])
  · rw [← hx]
    cases b <;> simp only [BinTok.mk, Tree.decor, VTree.text]

theorem at_head (n : Nat) (t : Token) (ts : List Token) : (RState.at n (t :: ts)).head = t := rfl

theorem syncText_at {want : TK → Bool} {n : Nat} {ts : List Token} (h : want (nextKind ts) = true) :
    syncText want (.at n ts) = [] := by
  have h' : want (RState.at n ts).la = true := h
  rw [syncText, if_neg (by intro h; cases h), if_pos h']

theorem matchText_one (m : JStr) (t : Token) : matchText m [t] = t.text := by
  simp [matchText, textOf]

theorem vRange_at (ctx : List Frame) (n : Nat) (t lo to_ hi : Token) (ts : List Token) (h2 : to_.kind = .kTo)
    (h3 : isNumKind hi.kind = true) :
    vRange ctx t (.at n (lo :: to_ :: hi :: ts)) =
      (.to_ (textOf [t, lo, to_, hi]) t lo (some (hi, hi.text)), true, .at n ts) := by
  rw [vRange, at_take, match_at (by rw [h2]; rfl)]
  simp only
  rw [rUpper, match_at h3]
  simp [RState.at, RState.head, textOf, matchText]

theorem vPrimary_field (f : Nat) (ctx : List Frame) (n : Nat) {t : Token} (h : t.kind = .field) (ts : List Token) :
    vPrimary (f + 1) ctx (.at n (t :: ts)) =
      if isNumKind (nextKind ts) then some (vRange ctx t (.at n ts)) else vField f ctx t (.at n ts) := by
  rw [vPrimary, at_cons, h]; rfl

theorem vreads_types {t : Token} {ts : List Token} : VReads (t :: ts) (.types t false, ts) :=
  ⟨[t], rfl, rfl, by simp [Tree.decor, VTree.text, textOf]⟩

theorem vreads_none {t : Token} {ts : List Token} : VReads ts (.types t true, ts) :=
  ⟨[], rfl, rfl, by simp [Tree.decor, VTree.text, textOf]⟩

theorem v_agree (f : Nat) :
    (∀ p ctx n ts x, pExpr f p ts = some x → Okay ctx x →
      VReads ts x ∧ vExpr (f + 1) p ctx (.at n ts) = some (x.1.decor ts, .at n x.2)) ∧
    (∀ ctx n ts x, pPrimary f ts = some x → Okay (.ops :: ctx) x →
      VReads ts x ∧ vPrimary (f + 1) ctx (.at n ts) = some (x.1.decor ts, true, .at n x.2)) ∧
    (∀ ctx t n ts x, pAfterField f t ts = some x →
      VReads (t :: ts) x ∧ vField (f + 1) ctx t (.at n ts) = some (x.1.decor (t :: ts), true, .at n x.2)) ∧
    (∀ p ctx l n c0 ts x, c0.length = l.width → (l.decor (c0 ++ ts)).text = textOf c0 → pLoop f p l ts = some x → Okay ctx x →
      VReads (c0 ++ ts) x ∧ vLoop (f + 1) p ctx (l.decor (c0 ++ ts)) (.at n ts) = some (x.1.decor (c0 ++ ts), .at n x.2)) ∧
    (∀ ctx n ts x, pWordlist f ts = some x →
      ∃ c, ts = c ++ x.2 ∧ c.length = 1 + Tree.widths x.1 ∧
        vWordlist (f + 1) ctx (.at n ts) = some (.complete, Tree.decorAll x.1 (ts.drop 1), textOf c, .at n x.2)) ∧
    (∀ ctx n ts x, pMore f ts = some x →
      ∃ c, ts = c ++ x.2 ∧ c.length = 1 + Tree.widths x.1 ∧
        vMore (f + 1) ctx (.at n ts) = some (.complete, Tree.decorAll x.1 (ts.drop 1), textOf c, .at n x.2)) := by
  induction f with
  | zero => refine ⟨?_, ?_, ?_, ?_, ?_, ?_⟩ <;> intros <;> simp_all [pExpr, pPrimary, pAfterField, pLoop, pWordlist, pMore]
  | succ f ih =>
    obtain ⟨hE, hP, hA, hL, hW, hM⟩ := ih
    refine ⟨?_, ?_, ?_, ?_, ?_, ?_⟩
    · intro p ctx n ts x h hx
      rw [pExpr] at h
      cases e : pPrimary f ts with
      | none => rw [e] at h; cases h
      | some y =>
        rw [e] at h
        have hy : Okay (.ops :: ctx) y := by
          rcases loop_cases h with rfl | h1
          · exact hx.ops
          · exact .inl (h1.2 ctx)
        obtain ⟨⟨c, hc, hcl, hct⟩, h1⟩ := hP ctx n ts y e hy
        rw [vExpr, h1]
        have := hL p ctx y.1 n c y.2 x hcl (by rw [← hc]; exact hct) h hx
        rw [← hc] at this
        exact this
    · intro ctx n ts x h hx
      cases ts with
      | nil => cases h; exact ⟨vreads_none, by rw [vPrimary]; rfl⟩
      | cons t ts =>
        by_cases hf : t.kind = .field
        · rw [pPrimary_field _ _ _ hf] at h
          rw [vPrimary_field _ _ _ hf]
          match ts, h with
          | [], h => cases h; exact ⟨vreads_types, by rw [vField]; rfl⟩
          | [lo], h =>
            simp only [fieldTail] at h
            split at h
            · cases h
            · rename_i hn
              rw [if_neg (show ¬ isNumKind (nextKind (lo :: _)) = true from hn)]
              exact hA ctx t n _ _ h
          | [lo, to_], h =>
            simp only [fieldTail] at h
            split at h
            · cases h
            · rename_i hn
              rw [if_neg (show ¬ isNumKind (nextKind (lo :: _)) = true from hn)]
              exact hA ctx t n _ _ h
          | lo :: to_ :: hi :: ts', h =>
            simp only [fieldTail] at h
            split at h
            · rename_i hn
              rw [if_pos (show isNumKind (nextKind (lo :: _)) = true from hn)]
              split at h
              · rename_i h2
                cases h
                have ht : (Tree.to_ t lo hi).textAt ([t, lo, to_, hi] ++ ts') = textOf [t, lo, to_, hi] := textAt_of rfl
                rw [vRange_at _ _ _ _ _ _ _ h2.1 h2.2, ← ht]
                refine ⟨⟨[t, lo, to_, hi], rfl, rfl, ?_⟩, ?_⟩
                · rw [Tree.decor, VTree.text]; exact ht
                · rw [Tree.decor]; rfl
              · cases h
            · rename_i hn
              rw [if_neg (show ¬ isNumKind (nextKind (lo :: _)) = true from hn)]
              exact hA ctx t n _ _ h
        · rw [pPrimary_cons] at h
          rw [vPrimary, at_cons]
          cases hk : t.kind with
          | lparen =>
            rw [hk] at h
            simp only at h
            simp only [at_take]
            cases e : pExpr f 0 ts with
            | none => rw [e] at h; cases h
            | some y =>
              obtain ⟨t', r⟩ := y
              rw [e] at h
              cases r with
              | nil => cases h
              | cons r ts' =>
                simp only at h
                split at h
                · rename_i hr
                  cases h
                  have hr' : lookAfter (.rparen :: ctx) (nextKind (r :: ts')) = true := by
                    show Frame.has .rparen r.kind = true
                    rw [hr]; rfl
                  obtain ⟨⟨c, hc, hcl, hct⟩, h1⟩ := hE 0 (.rparen :: ctx) n ts _ e (.inl hr')
                  simp only at hc hcl hct h1
                  have hw : (t :: (c ++ [r])).length = (Tree.paren t').width := by simp [Tree.width, hcl]
                  have ht : (Tree.paren t').textAt (t :: ts) = textOf (t :: (c ++ [r])) := by
                    rw [hc, ← textAt_of (r := ts') hw]; simp
                  rw [h1]
                  simp only
                  rw [match_at (by rw [hr]; rfl)]
                  refine ⟨⟨t :: (c ++ [r]), by simp [hc], hw, by rw [Tree.decor, VTree.text, ht]⟩, ?_⟩
                  simp only [Tree.decor, ht, hct, matchText_one, at_head, List.drop_one, List.tail_cons]
                  simp [textOf]
                · cases h
          | kNot =>
            rw [hk] at h
            simp only at h
            simp only [at_take]
            cases e : pExpr f 15 ts with
            | none => rw [e] at h; cases h
            | some y =>
              rw [e] at h; cases h
              obtain ⟨⟨c, hc, hcl, hct⟩, h1⟩ := hE 15 (.ops :: ctx) n ts y e hx
              have hw : (t :: c).length = (Tree.not_ y.1).width := by simp [Tree.width, hcl]
              have ht : (Tree.not_ y.1).textAt (t :: ts) = textOf (t :: c) := by
                rw [hc, ← textAt_of (r := y.2) hw]; rfl
              rw [h1]
              refine ⟨⟨t :: c, by rw [hc]; rfl, hw, by rw [Tree.decor, VTree.text, ht]⟩, ?_⟩
              simp only [Tree.decor, ht, hct, at_head, List.drop_one, List.tail_cons, textOf_cons]
          | arith op =>
            rw [hk] at h
            cases op with
            | sub =>
              simp only at h
              cases e : pExpr f 13 ts with
              | none => rw [e] at h; cases h
              | some y =>
                rw [e] at h; cases h
                have hx1 : y.1.bare = true → lookAfter (.ops :: ctx) (nextKind y.2) = true := by
                  intro hb
                  rcases hx with h | h
                  · exact h
                  · simp [Tree.calm, hb] at h
                have hx2 : Okay (.ops :: ctx) y := by
                  rcases hx with h | h
                  · exact .inl h
                  · simp only [Tree.calm, Bool.and_eq_true] at h
                    exact .inr h.2
                have hm : minusAhead ctx .operand [] (RState.at n (t :: ts)).toks.tail = true :=
                  (minus_ahead ctx f).1 13 ts y e hx1
                simp only [hm, if_true, at_take]
                obtain ⟨⟨c, hc, hcl, hct⟩, h1⟩ := hE 13 (.ops :: ctx) n ts y e hx2
                have hw : (t :: c).length = (Tree.neg y.1).width := by simp [Tree.width, hcl]
                have ht : (Tree.neg y.1).textAt (t :: ts) = textOf (t :: c) := by
                  rw [hc, ← textAt_of (r := y.2) hw]; rfl
                rw [h1]
                refine ⟨⟨t :: c, by rw [hc]; rfl, hw, by rw [Tree.decor, VTree.text, ht]⟩, ?_⟩
                simp only [Tree.decor, ht, hct, at_head, List.drop_one, List.tail_cons, textOf_cons]
            | _ => cases h; exact ⟨vreads_none, rfl⟩
          | fn g =>
            rw [hk] at h
            simp only at h
            simp only [at_take]
            cases e : pWordlist f ts with
            | none => rw [e] at h; cases h
            | some y =>
              rw [e] at h; cases h
              obtain ⟨c, hc, hcl, h1⟩ := hW (.ops :: ctx) n ts y e
              have hw : (t :: c).length = (Tree.func g y.1).width := by simp [Tree.width, hcl]; omega
              have ht : (Tree.func g y.1).textAt (t :: ts) = textOf (t :: c) := by
                rw [hc, ← textAt_of (r := y.2) hw]; rfl
              rw [h1]
              refine ⟨⟨t :: c, by rw [hc]; rfl, hw, by rw [Tree.decor, VTree.text, ht]⟩, ?_⟩
              simp only [Tree.decor, ht, at_head, textOf_cons]
              rfl
          | field => exact absurd hk hf
          | _ => rw [hk] at h; cases h <;> first | exact ⟨vreads_none, rfl⟩ | exact ⟨vreads_types, rfl⟩
    · intro ctx t n ts x h
      cases ts with
      | nil => cases h; exact ⟨vreads_types, by rw [vField]; rfl⟩
      | cons u us =>
        rw [pAfterField_cons] at h
        rw [vField, at_cons]
        cases hk : u.kind with
        | kIn =>
          rw [hk] at h
          simp only [at_take] at h ⊢
          cases e : pWordlist f us with
          | none => rw [e] at h; cases h
          | some y =>
            rw [e] at h; cases h
            obtain ⟨c, hc, hcl, h1⟩ := hW (.ops :: ctx) n us y e
            have hw : (t :: u :: c).length = (Tree.in_ t false y.1).width := by simp [Tree.width, hcl]; omega
            have ht : (Tree.in_ t false y.1).textAt (t :: u :: us) = textOf (t :: u :: c) := by
              rw [hc, ← textAt_of (r := y.2) hw]; rfl
            rw [h1]
            refine ⟨⟨t :: u :: c, by rw [hc]; rfl, hw, by rw [Tree.decor, VTree.text, ht]⟩, ?_⟩
            simp only [Tree.decor, ht, at_head, textOf_cons, List.append_assoc]
            rfl
        | cAll =>
          rw [hk] at h
          simp only [at_take] at h ⊢
          cases e : pWordlist f us with
          | none => rw [e] at h; cases h
          | some y =>
            rw [e] at h; cases h
            obtain ⟨c, hc, hcl, h1⟩ := hW (.ops :: ctx) n us y e
            have hw : (t :: u :: c).length = (Tree.array t .containsAll y.1).width := by simp [Tree.width, hcl]; omega
            have ht : (Tree.array t .containsAll y.1).textAt (t :: u :: us) = textOf (t :: u :: c) := by
              rw [hc, ← textAt_of (r := y.2) hw]; rfl
            rw [h1]
            refine ⟨⟨t :: u :: c, by rw [hc]; rfl, hw, by rw [Tree.decor, VTree.text, ht]⟩, ?_⟩
            simp only [Tree.decor, ht, at_head, textOf_cons, List.append_assoc]
            rfl
        | cAny =>
          rw [hk] at h
          simp only [at_take] at h ⊢
          cases e : pWordlist f us with
          | none => rw [e] at h; cases h
          | some y =>
            rw [e] at h; cases h
            obtain ⟨c, hc, hcl, h1⟩ := hW (.ops :: ctx) n us y e
            have hw : (t :: u :: c).length = (Tree.array t .containsAny y.1).width := by simp [Tree.width, hcl]; omega
            have ht : (Tree.array t .containsAny y.1).textAt (t :: u :: us) = textOf (t :: u :: c) := by
              rw [hc, ← textAt_of (r := y.2) hw]; rfl
            rw [h1]
            refine ⟨⟨t :: u :: c, by rw [hc]; rfl, hw, by rw [Tree.decor, VTree.text, ht]⟩, ?_⟩
            simp only [Tree.decor, ht, at_head, textOf_cons, List.append_assoc]
            rfl
        | kNot =>
          rw [hk] at h
          cases us with
          | nil => cases h
          | cons v vs =>
            simp only [at_take] at h ⊢
            split at h
            · rename_i hv
              rw [match_at (by rw [hv]; rfl)]
              simp only
              cases e : pWordlist f vs with
              | none => rw [e] at h; cases h
              | some y =>
                rw [e] at h; cases h
                obtain ⟨c, hc, hcl, h1⟩ := hW (.ops :: ctx) n vs y e
                have hw : (t :: u :: v :: c).length = (Tree.in_ t true y.1).width := by simp [Tree.width, hcl]; omega
                have ht : (Tree.in_ t true y.1).textAt (t :: u :: v :: vs) = textOf (t :: u :: v :: c) := by
                  rw [hc, ← textAt_of (r := y.2) hw]; rfl
                rw [h1]
                refine ⟨⟨t :: u :: v :: c, by rw [hc]; rfl, hw, by rw [Tree.decor, VTree.text, ht]⟩, ?_⟩
                simp only [Tree.decor, ht, at_head, textOf_cons, List.append_assoc, matchText_one]
                rfl
            · cases h
        | _ => rw [hk] at h; cases h; exact ⟨vreads_types, rfl⟩
    · intro p ctx l n c0 ts x h0 ht h hx
      cases ts with
      | nil => rw [pLoop] at h; cases h; exact ⟨⟨c0, rfl, h0, ht⟩, by rw [vLoop]; rfl⟩
      | cons t ts =>
        rw [pLoop] at h
        rw [vLoop, at_cons]
        cases hb : binTok t.kind with
        | none => rw [hb] at h; cases h; exact ⟨⟨c0, rfl, h0, ht⟩, rfl⟩
        | some b =>
          rw [hb] at h
          simp only [at_take] at h ⊢
          split at h
          · rename_i hp
            rw [if_pos hp]
            cases e : pExpr f (b.prec + 1) ts with
            | none => rw [e] at h; cases h
            | some y =>
              rw [e] at h
              have hy : Okay (.ops :: ctx) y := by
                rcases loop_cases h with rfl | h1
                · refine hx.ops.imp id ?_
                  intro h; rwa [calm_mk] at h
                · exact .inl (h1.2 ctx)
              obtain ⟨⟨c, hc, hcl, hct⟩, h1⟩ := hE _ (.ops :: ctx) n ts y e hy
              rw [h1]
              simp only [at_head]
              subst hc
              obtain ⟨d1, d2, d3⟩ := decor_mk (b := b) h0 ht hcl hct
              have ea : c0 ++ t :: (c ++ y.2) = (c0 ++ t :: c) ++ y.2 := by simp
              rw [← d1]
              rw [ea] at d3 ⊢
              exact hL p ctx _ n _ _ _ d2 d3 h hx
          · rename_i hp
            rw [if_neg hp]
            cases h; exact ⟨⟨c0, rfl, h0, ht⟩, rfl⟩
    · intro ctx n ts x h
      cases ts with
      | nil => cases h
      | cons t ts =>
        rw [pWordlist] at h
        split at h
        · rename_i ht
          cases e : pExpr f 0 ts with
          | none => rw [e] at h; cases h
          | some y =>
            rw [e] at h
            simp only at h
            cases e2 : pMore f y.2 with
            | none => rw [e2] at h; cases h
            | some z =>
              rw [e2] at h; cases h
              obtain ⟨⟨c, hc, hcl, hct⟩, h1⟩ := hE 0 (.items :: ctx) n ts y e (.inl (items_after (ends_items e2)))
              obtain ⟨c', hc', hcl', h2⟩ := hM ctx n _ z e2
              have hi := starts_list e (more_ends e2)
              rw [vWordlist, match_at (by rw [ht]; rfl)]
              simp only
              rw [sync_at hi]
              simp only
              rw [h1]
              simp only
              rw [sync_at (ends_items e2)]
              simp only
              rw [h2, syncText_at hi, syncText_at (ends_items e2), hct]
              refine ⟨t :: (c ++ c'), ?_, ?_, ?_⟩
              · rw [hc, hc']; simp
              · simp [Tree.widths, hcl, hcl']; omega
              · simp only [matchText_one, List.append_nil, textOf_cons, textOf_append, List.drop_one, List.tail_cons,
                  Tree.decorAll]
                rw [show ts.drop (y.1.width + 1) = y.2.tail by
                  rw [hc, ← hcl, ← List.drop_drop, List.drop_left, List.drop_one]]
                simp
        · cases h
    · intro ctx n ts x h
      cases ts with
      | nil => cases h
      | cons t ts =>
        rw [pMore] at h
        rw [vMore, at_cons]
        split at h
        · rename_i ht
          cases h
          rw [if_neg (by rw [ht]; intro h; cases h), match_at (by rw [ht]; rfl)]
          refine ⟨[t], rfl, rfl, ?_⟩
          simp [matchText_one, Tree.decorAll, textOf]
        · split at h
          · rename_i ht
            cases e : pExpr f 0 ts with
            | none => rw [e] at h; cases h
            | some y =>
              rw [e] at h
              simp only at h
              cases e2 : pMore f y.2 with
              | none => rw [e2] at h; cases h
              | some z =>
                rw [e2] at h; cases h
                obtain ⟨⟨c, hc, hcl, hct⟩, h1⟩ := hE 0 (.items :: ctx) n ts y e (.inl (items_after (ends_items e2)))
                obtain ⟨c', hc', hcl', h2⟩ := hM ctx n _ z e2
                have hi := starts_list e (more_ends e2)
                rw [if_pos ht, at_take, sync_at hi]
                simp only
                rw [h1]
                simp only
                rw [sync_at (ends_items e2)]
                simp only
                rw [h2, syncText_at hi, syncText_at (ends_items e2), hct]
                refine ⟨t :: (c ++ c'), ?_, ?_, ?_⟩
                · rw [hc, hc']; simp
                · simp [Tree.widths, hcl, hcl']; omega
                · simp only [at_head, List.append_nil, textOf_cons, textOf_append, List.drop_one, List.tail_cons,
                    Tree.decorAll]
                  rw [show ts.drop (y.1.width + 1) = y.2.tail by
                    rw [hc, ← hcl, ← List.drop_drop, List.drop_left, List.drop_one]]
                  simp
          · cases h

end BoolParser
