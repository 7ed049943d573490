import Verif.Lemmas.VerbatimTexts
/-!
# On texts of the grammar: the names (for C87)
-/

namespace BoolParser
open Spec

mutual
/-- The tree with the names but without the texts of its contexts. -/
def Tree.named : Tree → List Token → NTree
  | .paren t, ks => .paren (t.named (ks.drop 1))
  | .not_ t, ks => .not_ (t.named (ks.drop 1))
  | .cmp op l r, ks => .cmp op (l.named ks) (r.named (ks.drop (l.width + 1)))
  | .neg t, ks => .neg (t.named (ks.drop 1))
  | .arith op l r, ks => .arith op (l.named ks) (r.named (ks.drop (l.width + 1)))
  | .func f items, ks => .func f (nameAt 0 ks) (Tree.namedAll items (ks.drop 2))
  | .bin c l r, ks => .bin c (l.named ks) (r.named (ks.drop (l.width + 1)))
  | .types t e, _ => .types t e
  | .to_ f lo hi, _ => .to_ f lo hi
  | .in_ f no items, ks => .in_ f no (Tree.namedAll items (ks.drop (if no then 4 else 3)))
  | .array f op items, ks => .array f op (nameAt 1 ks) (Tree.namedAll items (ks.drop 3))
/-- Of a list of items, each followed by one token. -/
def Tree.namedAll : List Tree → List Token → List NTree
  | [], _ => []
  | t :: ts, ks => t.named ks :: Tree.namedAll ts (ks.drop (t.width + 1))
end

mutual
theorem named_erase : (t : Tree) → (ks : List Token) → (t.named ks).erase = t
  | .paren t, ks => by simp only [Tree.named, NTree.erase, named_erase t]
  | .not_ t, ks => by simp only [Tree.named, NTree.erase, named_erase t]
  | .cmp op l r, ks => by simp only [Tree.named, NTree.erase, named_erase l, named_erase r]
  | .neg t, ks => by simp only [Tree.named, NTree.erase, named_erase t]
  | .arith op l r, ks => by simp only [Tree.named, NTree.erase, named_erase l, named_erase r]
  | .func f items, ks => by simp only [Tree.named, NTree.erase, namedAll_erase items]
  | .bin c l r, ks => by simp only [Tree.named, NTree.erase, named_erase l, named_erase r]
  | .types t e, ks => by simp only [Tree.named, NTree.erase]
  | .to_ f lo hi, ks => by simp only [Tree.named, NTree.erase]
  | .in_ f no items, ks => by simp only [Tree.named, NTree.erase, namedAll_erase items]
  | .array f op items, ks => by simp only [Tree.named, NTree.erase, namedAll_erase items]
theorem namedAll_erase : (ts : List Tree) → (ks : List Token) → NTree.eraseAll (Tree.namedAll ts ks) = ts
  | [], ks => by simp only [Tree.namedAll, NTree.eraseAll]
  | t :: ts, ks => by simp only [Tree.namedAll, NTree.eraseAll, named_erase t, namedAll_erase ts]
end

/-- The names among tokens. -/
abbrev namesOf (c : List Token) : List Token := c.filter fun k => k.kind.isName

theorem namesOf_cons {o : Token} {k : TK} (h : o.kind = k) (hk : k.isName = false) (r : List Token) :
    namesOf (o :: r) = namesOf r := by
  rw [namesOf, List.filter_cons_of_neg (by rw [h, hk]; decide)]

theorem namesOf_name {o : Token} {k : TK} (h : o.kind = k) (hk : k.isName = true) (r : List Token) :
    namesOf (o :: r) = o :: namesOf r := by
  rw [namesOf, List.filter_cons_of_pos (by rw [h]; exact hk)]

theorem typesKinds_plain {k : TK} (h : k ∈ typesKinds) : k.isName = false := by
  simp only [typesKinds, List.mem_cons, List.not_mem_nil, or_false] at h
  rcases h with rfl | rfl | rfl | rfl | rfl | rfl | rfl | rfl | rfl <;> rfl

theorem numericKinds_plain {k : TK} (h : k ∈ numericKinds) : k.isName = false := by
  simp only [numericKinds, List.mem_cons, List.not_mem_nil, or_false] at h
  rcases h with rfl | rfl | rfl <;> rfl

theorem kinds_width {t : Tree} (hg : t.Gram) {c : List Token} (hk : kindsOf c = t.kinds) : c.length = t.width := by
  rw [width_kinds hg, ← hk, List.length_map]

theorem drop_past {t : Tree} (hg : t.Gram) {x : List Token} (hk : kindsOf x = t.kinds) (o : Token) (y : List Token) :
    (x ++ o :: y).drop (t.width + 1) = y := drop_of (kinds_width hg hk) o y

theorem close_head (ts : List Tree) : ∃ k ks, closeKinds (kindsAll ts) = k :: ks ∧ k.isName = false := by
  cases ts with
  | nil => exact ⟨_, _, rfl, rfl⟩
  | cons t ts => exact ⟨_, _, rfl, rfl⟩

theorem close_list {ts : List Tree} (h : ts ≠ []) {k : TK} {ks : List TK} (hc : closeKinds (kindsAll ts) = k :: ks) :
    listKinds (kindsAll ts) = .lparen :: ks := by
  cases ts with
  | nil => exact absurd rfl h
  | cons t ts =>
    rw [kindsAll, closeKinds] at hc
    rw [kindsAll, listKinds, (List.cons.inj hc).2]

theorem list_open {ts : List Tree} (h : ts ≠ []) {r : List Token} (hr : kindsOf r = listKinds (kindsAll ts)) :
    ∃ o c, r = o :: c ∧ o.kind = .lparen ∧ listKinds (kindsAll ts) = .lparen :: kindsOf c := by
  cases ts with
  | nil => exact absurd rfl h
  | cons t ts =>
    obtain ⟨o, c, rfl, ho, hc⟩ := kinds_cons hr
    exact ⟨o, c, rfl, ho, by rw [kindsAll, listKinds, hc]⟩

mutual
theorem dress_named : (t : Tree) → {c post : List Token} → t.Gram → kindsOf c = t.kinds → (ns : List Token) →
    dress t (namesOf c ++ ns) = (t.named (c ++ post), ns)
  | .paren t, c, post, hg, hk, ns => by
    obtain ⟨o, r, rfl, ho, hr⟩ := kinds_cons hk
    obtain ⟨x, y, rfl, hx, hy⟩ := kinds_append hr
    obtain ⟨q, z, rfl, hq, hz⟩ := kinds_cons hy
    cases (List.map_eq_nil_iff.1 hz)
    rw [namesOf_cons ho rfl, dress, Tree.named]
    have h := dress_named t (c := x) (post := q :: post) hg hx ns
    rw [namesOf, List.filter_append, List.filter_cons_of_neg (by rw [hq]; decide), List.filter_nil, List.append_nil, h]
    simp
  | .not_ t, c, post, hg, hk, ns => by
    obtain ⟨o, r, rfl, ho, hr⟩ := kinds_cons hk
    rw [namesOf_cons ho rfl, dress, Tree.named, dress_named t (post := post) hg hr ns]
    simp
  | .neg t, c, post, hg, hk, ns => by
    obtain ⟨o, r, rfl, ho, hr⟩ := kinds_cons hk
    rw [namesOf_cons ho rfl, dress, Tree.named, dress_named t (post := post) hg hr ns]
    simp
  | .cmp op l r, c, post, hg, hk, ns => by
    obtain ⟨x, y, rfl, hx, hy⟩ := kinds_append hk
    obtain ⟨o, z, rfl, ho, hz⟩ := kinds_cons hy
    have h1 := dress_named l (post := o :: (z ++ post)) hg.1 hx (namesOf z ++ ns)
    have h2 := dress_named r (post := post) hg.2 hz ns
    have e : namesOf (x ++ o :: z) ++ ns = namesOf x ++ (namesOf z ++ ns) := by
      rw [namesOf, List.filter_append, List.append_assoc]; rw [show List.filter _ (o :: z) = namesOf z from namesOf_cons ho rfl z]
    rw [e, dress]
    simp only [h1, h2]
    rw [Tree.named, List.append_assoc, List.cons_append, drop_past hg.1 hx]
  | .arith op l r, c, post, hg, hk, ns => by
    obtain ⟨x, y, rfl, hx, hy⟩ := kinds_append hk
    obtain ⟨o, z, rfl, ho, hz⟩ := kinds_cons hy
    have h1 := dress_named l (post := o :: (z ++ post)) hg.1 hx (namesOf z ++ ns)
    have h2 := dress_named r (post := post) hg.2 hz ns
    have e : namesOf (x ++ o :: z) ++ ns = namesOf x ++ (namesOf z ++ ns) := by
      rw [namesOf, List.filter_append, List.append_assoc]; rw [show List.filter _ (o :: z) = namesOf z from namesOf_cons ho rfl z]
    rw [e, dress]
    simp only [h1, h2]
    rw [Tree.named, List.append_assoc, List.cons_append, drop_past hg.1 hx]
  | .bin b l r, c, post, hg, hk, ns => by
    obtain ⟨x, y, rfl, hx, hy⟩ := kinds_append hk
    obtain ⟨o, z, rfl, ho, hz⟩ := kinds_cons hy
    have h1 := dress_named l (post := o :: (z ++ post)) hg.1 hx (namesOf z ++ ns)
    have h2 := dress_named r (post := post) hg.2 hz ns
    have e : namesOf (x ++ o :: z) ++ ns = namesOf x ++ (namesOf z ++ ns) := by
      rw [namesOf, List.filter_append, List.append_assoc]
      rw [show List.filter _ (o :: z) = namesOf z from namesOf_cons ho (by cases b <;> rfl) z]
    rw [e, dress]
    simp only [h1, h2]
    rw [Tree.named, List.append_assoc, List.cons_append, drop_past hg.1 hx]
  | .func f items, c, post, hg, hk, ns => by
    obtain ⟨o, r, rfl, ho, hr⟩ := kinds_cons hk
    obtain ⟨p, c, rfl, hp, hr⟩ := list_open hg.1 hr
    have h := dressAll_named items hg.2 hr (post := post) ns
    rw [namesOf_name ho rfl, namesOf_cons hp rfl, dress]
    simp only [List.cons_append, List.tail_cons, h]
    rw [Tree.named, nameAt]
    simp
  | .types t e, c, post, hg, hk, ns => by
    rw [dress, Tree.named]
    cases e with
    | true =>
      cases (List.map_eq_nil_iff.1 (show c.map Token.kind = [] from hk)); rfl
    | false =>
      obtain ⟨o, r, rfl, ho, hr⟩ := kinds_cons (show kindsOf c = t.kind :: [] from hk)
      cases (List.map_eq_nil_iff.1 hr)
      rw [namesOf_cons ho (typesKinds_plain (hg.resolve_left (by decide)))]; rfl
  | .to_ f lo hi, c, post, hg, hk, ns => by
    obtain ⟨o, r, rfl, ho, hr⟩ := kinds_cons hk
    obtain ⟨p, r, rfl, hp, hr⟩ := kinds_cons hr
    obtain ⟨q, r, rfl, hq, hr⟩ := kinds_cons hr
    obtain ⟨w, r, rfl, hw, hr⟩ := kinds_cons hr
    cases (List.map_eq_nil_iff.1 hr)
    rw [namesOf_cons ho (by rw [hg.1]; rfl), namesOf_cons hp (numericKinds_plain hg.2.1), namesOf_cons hq rfl,
      namesOf_cons hw (numericKinds_plain hg.2.2), dress, Tree.named]
    rfl
  | .in_ f no items, c, post, hg, hk, ns => by
    obtain ⟨o, r, rfl, ho, hr⟩ := kinds_cons hk
    cases no with
    | true =>
      obtain ⟨p, r, rfl, hp, hr⟩ := kinds_cons (show kindsOf r = .kNot :: _ from hr)
      obtain ⟨q, r, rfl, hq, hr⟩ := kinds_cons hr
      obtain ⟨w, c, rfl, hw, hr⟩ := list_open hg.2.1 hr
      have h := dressAll_named items hg.2.2 hr (post := post) ns
      rw [namesOf_cons ho (by rw [hg.1]; rfl), namesOf_cons hp rfl, namesOf_cons hq rfl, namesOf_cons hw rfl, dress]
      simp only [h]
      rw [Tree.named]
      simp
    | false =>
      obtain ⟨q, r, rfl, hq, hr⟩ := kinds_cons (show kindsOf r = .kIn :: _ from hr)
      obtain ⟨w, c, rfl, hw, hr⟩ := list_open hg.2.1 hr
      have h := dressAll_named items hg.2.2 hr (post := post) ns
      rw [namesOf_cons ho (by rw [hg.1]; rfl), namesOf_cons hq rfl, namesOf_cons hw rfl, dress]
      simp only [h]
      rw [Tree.named]
      simp
  | .array f op items, c, post, hg, hk, ns => by
    obtain ⟨o, r, rfl, ho, hr⟩ := kinds_cons hk
    obtain ⟨q, r, rfl, hq, hr⟩ := kinds_cons hr
    obtain ⟨w, c, rfl, hw, hr⟩ := list_open hg.2.1 hr
    have h := dressAll_named items hg.2.2 hr (post := post) ns
    rw [namesOf_cons ho (by rw [hg.1]; rfl), namesOf_name hq (by cases op <;> rfl), namesOf_cons hw rfl, dress]
    simp only [List.cons_append, List.tail_cons, h]
    rw [Tree.named, nameAt]
    simp
theorem dressAll_named : (ts : List Tree) → {c post : List Token} → gramAll ts →
    listKinds (kindsAll ts) = .lparen :: kindsOf c → (ns : List Token) →
    dressAll ts (namesOf c ++ ns) = (Tree.namedAll ts (c ++ post), ns)
  | [], c, post, _, h0, ns => by cases h0
  | t :: ts, c, post, hg, hk, ns => by
    have hk : kindsOf c = t.kinds ++ closeKinds (kindsAll ts) := (List.cons.inj hk).2.symm
    obtain ⟨x, y, rfl, hx, hy⟩ := kinds_append hk
    obtain ⟨k, ks, hc, hn⟩ := close_head ts
    rw [hc] at hy
    obtain ⟨q, z, rfl, hq, hz⟩ := kinds_cons hy
    have h1 := dress_named t (c := x) (post := q :: (z ++ post)) hg.1 hx (namesOf z ++ ns)
    have h2 : dressAll ts (namesOf z ++ ns) = (Tree.namedAll ts (z ++ post), ns) := by
      by_cases he : ts = []
      · have : z = [] := by
          rw [he] at hc
          cases hc
          exact List.map_eq_nil_iff.1 hz
        rw [this, he, dressAll, Tree.namedAll]; rfl
      · exact dressAll_named ts (c := z) (post := post) hg.2 (by rw [close_list he hc, hz]) ns
    have e : namesOf (x ++ q :: z) ++ ns = namesOf x ++ (namesOf z ++ ns) := by
      rw [namesOf, List.filter_append, List.append_assoc]; rw [show List.filter _ (q :: z) = namesOf z from namesOf_cons hq hn z]
    rw [e, dressAll]
    simp only [h1, h2]
    rw [Tree.namedAll, List.append_assoc, List.cons_append, drop_past hg.1 hx]
end

theorem treeOf_named {s : JStr} {t : Tree} (h : parseTokens (lex s) = some t) : treeOf s = some (t.named (lex s)) := by
  have := dress_named t (c := lex s) (post := []) (parseTokens_gram h) (parseTokens_kinds h).symm []
  rw [List.append_nil, List.append_nil] at this
  rw [treeOf, h, Option.map_some, this]

variable {loc : Locale} {df : Option JStr}

mutual
theorem mapNodeV_untold : (t : Tree) → (ks : List Token) → (st : List NNode) →
    untold (mapNodeV loc df (t.decor ks) st) = mapNodeN loc df (t.named ks) st
  | .types t e, ks, st => by
    rw [Tree.decor, Tree.named, mapNodeV, mapNodeN, untold_bind, untold_bare]; rfl
  | .func f items, ks, st => by
    rw [Tree.decor, Tree.named, mapNodeV, mapNodeN]
    simp only [ListShape.noException]
    cases functionIn loc (nameAt 0 ks) with
    | none => rfl
    | some g => simp only [untold_bind, mapNodesV_untold items]; rfl
  | .in_ f no items, ks, st => by
    rw [Tree.decor, Tree.named, mapNodeV, mapNodeN]
    simp only [untold_bind, mapNodesV_untold items, ListShape.children]; rfl
  | .to_ f lo hi, ks, st => by
    rw [Tree.decor, Tree.named, mapNodeV, mapNodeN]
    simp only [untold_bind, untold_bare]; rfl
  | .cmp op l r, ks, st => by
    rw [Tree.decor, Tree.named, mapNodeV, mapNodeN]
    simp only [decor_erase, up_useStack, up_isTypes, up_startType, useStackN, named_erase]
    split
    · simp only [untold_bind, untold_bare, mapNodeV_untold l]; rfl
    · split
      · simp only [untold_bind, untold_bare, mapNodeV_untold r]; rfl
      · simp only [untold_bind, mapNodeV_untold l, mapNodeV_untold r]; rfl
  | .arith op l r, ks, st => by
    rw [Tree.decor, Tree.named, mapNodeV_arith, mapNodeN_arith]
    simp only [decor_erase, up_isTypes, named_erase]
    split
    · simp only [untold_bind, mapNodeV_untold l, mapNodeV_untold r]; rfl
    · split
      · simp only [untold_bind, untold_bare, mapNodeV_untold l]; rfl
      · split
        · simp only [untold_bind, untold_bare, mapNodeV_untold r]; rfl
        · match st with
          | [] => rfl
          | [_] => rfl
          | _ :: _ :: _ => rfl
  | .paren t, ks, st => by rw [Tree.decor, Tree.named, mapNodeV, mapNodeN]; rfl
  | .not_ t, ks, st => by rw [Tree.decor, Tree.named, mapNodeV, mapNodeN]; rfl
  | .neg t, ks, st => by rw [Tree.decor, Tree.named, mapNodeV, mapNodeN]; rfl
  | .bin c l r, ks, st => by rw [Tree.decor, Tree.named, mapNodeV, mapNodeN]; rfl
  | .array f o items, ks, st => by rw [Tree.decor, Tree.named, mapNodeV, mapNodeN]; rfl
theorem mapNodesV_untold : (ts : List Tree) → (ks : List Token) → (st : List NNode) →
    untold (mapNodesV loc df (Tree.decorAll ts ks) st) = mapNodesN loc df (Tree.namedAll ts ks) st
  | [], ks, st => by rw [Tree.decorAll, Tree.namedAll, mapNodesV, mapNodesN]; rfl
  | t :: ts, ks, st => by
    simp only [Tree.decorAll, Tree.namedAll, mapNodesV, mapNodesN, untold_bind, mapNodeV_untold t, mapNodesV_untold ts]; rfl
end

theorem exitMappedV_untold (t : Tree) (ks : List Token) (s : NState) :
    untold (exitMappedV loc df (t.decor ks) s) = exitMappedN loc df (t.named ks) s := by
  simp only [exitMappedV, exitMappedN, untold_bind, mapNodeV_untold]; rfl

theorem exitNegV_untold (e : Tree) (ks : List Token) (s : NState) :
    untold (exitNegV df (e.decor ks) s) = exitNegN df (e.named ks) s := by
  have hl : untold (match e.decor ks with
      | .types t em => do
        let n ← bare (mapTypes df t em)
        pure { s with stack := .neg (.leaf n) :: s.stack }
      | _ => .error ⟨.classCast, none⟩ : Told NState) =
      (match e.named ks with
      | .types t em => do
        let n ← mapTypes df t em
        pure { s with stack := .neg (.leaf n) :: s.stack }
      | _ => .error .classCast : Result NState) := by
    cases e <;> simp only [Tree.decor, Tree.named] <;> first
      | rfl
      | (simp only [untold_bind, untold_bare]; rfl)
  unfold exitNegV exitNegN
  obtain ⟨st, last, count⟩ := s
  cases st with
  | nil => exact hl
  | cons n st =>
    simp only
    split
    · rfl
    · exact hl

theorem exitNotV_untold (x : JStr) (s : NState) : untold (exitNotV x s) = exitNotN s := by
  unfold exitNotV exitNotN
  cases s.stack with
  | cons n st => rfl
  | nil =>
    cases s.last with
    | none => rfl
    | some u => simp only [untold_bind, untold_bare]; rfl

theorem exitBinV_untold (x : JStr) (c : Bool) (s : NState) : untold (exitBinV x c s) = exitBinN c s := by
  unfold exitBinV exitBinN
  match s.stack with
  | [] => rfl
  | [_] => rfl
  | _ :: _ :: _ => rfl

theorem exitParseV_untold (x : JStr) (s : NState) : untold (exitParseV x s) = exitParseN s := by
  unfold exitParseV exitParseN
  cases s.stack with
  | cons n st => rfl
  | nil =>
    cases s.last with
    | none => rfl
    | some u =>
      simp only
      split
      · split
        · rfl
        · simp only [untold_bind, untold_bare]; rfl
      · rfl

mutual
theorem walkV_untold : (t : Tree) → (ks : List Token) → (s : NState) →
    untold (walkV loc df (t.decor ks) s) = walkN loc df (t.named ks) s
  | .paren t, ks, s => by simp only [Tree.decor, Tree.named, walkV, walkN, walkV_untold t]
  | .not_ t, ks, s => by simp only [Tree.decor, Tree.named, walkV, walkN, untold_bind, walkV_untold t, exitNotV_untold]
  | .cmp op l r, ks, s => by
    have h := exitMappedV_untold (loc := loc) (df := df) (.cmp op l r) ks
    simp only [Tree.decor, Tree.named] at h
    simp only [Tree.decor, Tree.named, walkV, walkN, untold_bind, walkV_untold l, walkV_untold r, h]
  | .neg t, ks, s => by simp only [Tree.decor, Tree.named, walkV, walkN, untold_bind, walkV_untold t, exitNegV_untold]
  | .arith op l r, ks, s => by
    have h := exitMappedV_untold (loc := loc) (df := df) (.arith op l r) ks
    simp only [Tree.decor, Tree.named] at h
    simp only [Tree.decor, Tree.named, walkV, walkN, untold_bind, walkV_untold l, walkV_untold r, h]
  | .func f items, ks, s => by
    have h := exitMappedV_untold (loc := loc) (df := df) (.func f items) ks
    simp only [Tree.decor, Tree.named] at h
    simp only [Tree.decor, Tree.named, walkV, walkN, untold_bind, walkAllV_untold items, h]
  | .bin c l r, ks, s => by
    simp only [Tree.decor, Tree.named, walkV, walkN, untold_bind, walkV_untold l, walkV_untold r, exitBinV_untold]
  | .types t e, ks, s => by simp only [Tree.decor, Tree.named, walkV, walkN, untold_ok]
  | .to_ f lo hi, ks, s => by
    have h := exitMappedV_untold (loc := loc) (df := df) (.to_ f lo hi) ks
    simp only [Tree.decor, Tree.named] at h
    simp only [Tree.decor, Tree.named, walkV, walkN, h]
  | .in_ f no items, ks, s => by
    have h := exitMappedV_untold (loc := loc) (df := df) (.in_ f no items) ks
    simp only [Tree.decor, Tree.named] at h
    simp only [Tree.decor, Tree.named, walkV, walkN, untold_bind, walkAllV_untold items, h]
  | .array f op items, ks, s => by
    simp only [Tree.decor, Tree.named, walkV, walkN, untold_bind, walkAllV_untold items, exitArrayV, exitArrayN,
      mapNodesV_untold items, ListShape.children]
    rfl
theorem walkAllV_untold : (ts : List Tree) → (ks : List Token) → (s : NState) →
    untold (walkAllV loc df (Tree.decorAll ts ks) s) = walkAllN loc df (Tree.namedAll ts ks) s
  | [], ks, s => by simp only [Tree.decorAll, Tree.namedAll, walkAllV, walkAllN, untold_ok]
  | t :: ts, ks, s => by
    simp only [Tree.decorAll, Tree.namedAll, walkAllV, walkAllN, untold_bind, walkV_untold t, walkAllV_untold ts]
end

/-- On a text of the grammar the parser of `Model/Verbatim.lean` is that of `Model/Locale.lean`. -/
theorem parseVerbatim_in {s : JStr} {t : Tree} (h : parseTokens (lex s) = some t) (loc : Locale) (df : Option JStr) :
    parseIn loc s df = .ofResult (untold (parseVerbatim loc s df)) := by
  rw [parseIn, treeOf_named h, parseVerbatim, vParse_of h]
  simp only [untold_bind, walkV_untold, exitParseV_untold]

theorem evaluateAny_in {s : JStr} {t : Tree} (h : parseTokens (lex s) = some t) (loc : Locale) (env : Env) (d : Data)
    (df : Option JStr) :
    evaluateIn loc env s d df = .ofResult (evaluateAnyIn loc env s d df) ∧
    evaluateArithIn loc env s d = .ofResult (evaluateArithAnyIn loc env s d) := by
  constructor
  · rw [evaluateIn, parseVerbatim_in h, andThen_ofResult, evaluateAnyIn]
    cases parseVerbatim loc s df <;> rfl
  · rw [evaluateArithIn, parseVerbatim_in h, andThen_ofResult, evaluateArithAnyIn]
    cases parseVerbatim loc s none <;> rfl

end BoolParser
