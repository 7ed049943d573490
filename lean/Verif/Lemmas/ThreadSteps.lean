import Verif.Lemmas.Sharing
import Verif.Spec.Threads
/-!
# Single steps of a method among other threads
-/

namespace BoolParser
open HM Spec

/-! ### Parts of the heap -/

/-- The objects of both. -/
def Mem.or (K M : Mem) : Mem := fun a => (K a).or (M a)

theorem Mem.le_or {K M : Mem} : K.Le (K.or M) := by
  intro a o h
  simp [Mem.or, h]

theorem Mem.or_le {K M N : Mem} (h1 : K.Le N) (h2 : M.Le N) : (K.or M).Le N := by
  intro a o h
  unfold Mem.or at h
  cases hk : K a with
  | none => rw [hk] at h; exact h2 a o h
  | some q => rw [hk] at h; cases h; exact h1 a _ hk

/-- Parts of one heap do not contradict each other. -/
theorem Mem.or_le_right {K M N : Mem} (h1 : K.Le N) (h2 : M.Le N) : M.Le (K.or M) := by
  intro a o h
  unfold Mem.or
  cases hk : K a with
  | none => exact h
  | some p =>
    have e := (h1 a p hk).symm.trans (h2 a o h)
    cases e
    rfl

theorem Mem.or_none {K M : Mem} {a : Addr} : K.or M a = none ↔ K a = none ∧ M a = none := by
  unfold Mem.or
  cases K a <;> simp

theorem leadsTo_mono {K M : Mem} (h : K.Le M) {a b : Addr} (hl : LeadsTo K a b) : LeadsTo M a b := by
  induction hl with
  | here => exact .here _
  | step h1 h2 _ ih => exact .step (h _ _ h1) h2 ih

open Classical in
/-- The objects that can be reached. -/
noncomputable def reach (H : Mem) (cs : List Addr) : Mem := fun a => if ∃ c ∈ cs, LeadsTo H c a then H a else none

theorem reach_le {H : Mem} {cs : List Addr} : (reach H cs).Le H := by
  intro a o h
  unfold reach at h
  split at h
  · exact h
  · cases h

theorem reach_none {H : Mem} {cs : List Addr} {a : Addr} (h : ∀ c ∈ cs, ¬ LeadsTo H c a) : reach H cs a = none := by
  unfold reach
  rw [if_neg]
  rintro ⟨c, hc, hl⟩
  exact h c hc hl

theorem reach_of {H : Mem} {cs : List Addr} {c a : Addr} (hc : c ∈ cs) (h : LeadsTo H c a) : reach H cs a = H a := by
  unfold reach
  rw [if_pos ⟨c, hc, h⟩]

theorem leadsTo_trans {H : Mem} {a b c : Addr} (h : LeadsTo H a b) (h' : LeadsTo H b c) : LeadsTo H a c := by
  induction h with
  | here => exact h'
  | step h1 h2 _ ih => exact .step h1 h2 (ih h')

/-- The way to a reached object leads through reached objects. -/
theorem reach_leads {H : Mem} {cs : List Addr} {b : Addr} {o : Obj} (h : reach H cs b = some o) :
    ∃ c ∈ cs, LeadsTo (reach H cs) c b := by
  have hx : ∃ c ∈ cs, LeadsTo H c b := by
    by_contra hn
    rw [reach_none (fun c hc hl => hn ⟨c, hc, hl⟩)] at h
    cases h
  obtain ⟨c, hc, hl⟩ := hx
  refine ⟨c, hc, ?_⟩
  have key : ∀ {a b}, LeadsTo H a b → LeadsTo H c a → LeadsTo (reach H cs) a b := by
    intro a b hab
    induction hab with
    | here => exact fun _ => .here _
    | step h1 h2 _ ih =>
      intro hca
      refine .step ((reach_of hc hca).trans h1) h2 (ih (leadsTo_trans hca (.step h1 h2 (.here _))))
  exact key hl (.here _)

theorem see_reach {H : Mem} {cs : List Addr} {m : Nat} {r : Ref} {v : Value} (hr : ∀ b ∈ refLink r, b ∈ cs)
    (h : see m H r = some v) : see m (reach H cs) r = some v :=
  see_on (P := fun a => ∃ c ∈ cs, LeadsTo H c a)
    (fun ⟨c, hc, hl⟩ h1 h2 => ⟨c, hc, leadsTo_trans hl (.step h1 h2 (.here _))⟩)
    (fun ⟨_, hc, hl⟩ h1 => (reach_of hc hl).trans h1) m (fun b hb => ⟨b, hr b hb, .here _⟩) h

theorem seeTree_reach {H : Mem} {cs : List Addr} {m k : Nat} {a : Addr} {n : Node} (ha : a ∈ cs)
    (h : seeTree m k H (some a) = some n) : seeTree m k (reach H cs) (some a) = some n :=
  seeTree_on (P := fun a => ∃ c ∈ cs, LeadsTo H c a)
    (fun ⟨c, hc, hl⟩ h1 h2 => ⟨c, hc, leadsTo_trans hl (.step h1 h2 (.here _))⟩)
    (fun ⟨_, hc, hl⟩ h1 => (reach_of hc hl).trans h1) (fun b hb => by
      rw [Option.toList_some, List.mem_singleton] at hb
      exact ⟨a, ha, hb ▸ .here _⟩) h

/-- The objects of a list of addresses. -/
def mine (own : List Addr) (H : Heap) : Mem := fun a => if a ∈ own then H[a]? else none

theorem mine_le {own : List Addr} {H : Heap} : (mine own H).Le H.mem := by
  intro a o h
  unfold mine at h
  split at h
  · exact h
  · cases h

theorem mine_nil {H : Heap} : mine [] H = fun _ => none := by
  funext a
  simp [mine]

theorem mine_eq {own : List Addr} {H G : Heap} (h : ∀ a ∈ own, G[a]? = H[a]?) : mine own G = mine own H := by
  funext a
  unfold mine
  split
  · next ha => exact h a ha
  · rfl

/-! ### One step -/

variable {α : Type}

/-- `G` has the objects of `H` unchanged except those of `own`. -/
def Keeps (own : List Addr) (H G : Heap) : Prop :=
  H.length ≤ G.length ∧ ∀ a < H.length, a ∉ own → G[a]? = H[a]?

theorem Keeps.refl {own : List Addr} {H : Heap} : Keeps own H H := ⟨Nat.le_refl _, fun _ _ _ => rfl⟩

theorem Keeps.grow {own : List Addr} {H : Heap} {o : Obj} : Keeps own H (H ++ [o]) :=
  ⟨by simp, fun a ha _ => List.getElem?_append_left ha⟩

theorem Keeps.le {own : List Addr} {H G : Heap} (h : Keeps own H G) {M : Mem} (hM : M.Le H.mem)
    (hd : ∀ a ∈ own, M a = none) : M.Le G.mem := by
  intro a o ha
  have h1 : H[a]? = some o := hM a o ha
  show G[a]? = some o
  rw [h.2 a (get_lt h1) (fun hm => by rw [hd a hm] at ha; cases ha)]
  exact h1

theorem Keeps.mine {own own' : List Addr} {H G : Heap} (h : Keeps own H G) (hi : ∀ a ∈ own', a < H.length)
    (hd : ∀ a ∈ own, a ∉ own') : mine own' G = mine own' H :=
  mine_eq (fun a ha => h.2 a (hi a ha) (fun hm => hd a hm ha))

/-- The method writes only to the objects it has created. -/
def Confined (x : HM α) (own : List Addr) : Prop := ∀ S : Addr → Prop, (∀ a ∈ own, S a) → Fr S x (fun _ => True)

theorem step_effect {x : HM α} {H : Heap} {own : List Addr} (h : Confined x own) (hi : ∀ a ∈ own, a < H.length) :
    Confined (x.step H own).1 (x.step H own).2.2 ∧ Keeps own H (x.step H own).2.1 ∧
      (∀ a ∈ (x.step H own).2.2, a < (x.step H own).2.1.length) ∧
      (∀ a ∈ (x.step H own).2.2, a ∈ own ∨ H.length ≤ a) := by
  cases x with
  | done o => exact ⟨h, Keeps.refl, hi, fun a ha => .inl ha⟩
  | readThen a k =>
    unfold HM.step
    dsimp only
    split
    · exact ⟨fun S hS => h S hS _, Keeps.refl, hi, fun a ha => .inl ha⟩
    · exact ⟨fun S hS => Fr.stuck, Keeps.refl, hi, fun a ha => .inl ha⟩
  | writeThen a o k =>
    have ha : a ∈ own := (h (· ∈ own) (fun _ h => h)).1
    refine ⟨fun S hS => (h S hS).2, ⟨by simp [HM.step], fun b _ hb => ?_⟩, fun b hb => by
      simpa [HM.step] using hi b hb, fun a ha => .inl ha⟩
    show (H.set a o)[b]? = H[b]?
    exact List.getElem?_set_ne (fun e : a = b => hb (e ▸ ha))
  | allocThen o k =>
    refine ⟨fun S hS => h S (fun a ha => hS a (List.mem_cons_of_mem _ ha)) _ (hS _ List.mem_cons_self), Keeps.grow, ?_, ?_⟩
    · intro a ha
      show a < (H ++ [o]).length
      rcases List.mem_cons.1 ha with rfl | ha
      · simp
      · rw [List.length_append]
        exact Nat.lt_add_right _ (hi a ha)
    · intro a ha
      rcases List.mem_cons.1 ha with rfl | ha
      · exact .inr (Nat.le_refl _)
      · exact .inl ha

theorem Wp.step {K : Mem} {Q : Out α → Mem → Prop} {x : HM α} {H : Heap} {own : List Addr}
    (h : Wp K x (mine own H) Q) (hK : K.Le H.mem) (hd : ∀ a ∈ own, K a = none) (hi : ∀ a ∈ own, a < H.length) :
    Wp K (x.step H own).1 (mine (x.step H own).2.2 (x.step H own).2.1) Q ∧ K.Le (x.step H own).2.1.mem ∧
      ∀ a ∈ (x.step H own).2.2, K a = none := by
  cases x with
  | done o => exact ⟨h, hK, hd⟩
  | readThen a k =>
    obtain ⟨o, h1, h2⟩ := h
    have : H[a]? = some o := h1.elim (hK a o) (mine_le a o)
    unfold HM.step
    dsimp only
    rw [this]
    exact ⟨h2, hK, hd⟩
  | writeThen a o k =>
    obtain ⟨h1, h2⟩ := h
    have ha : a ∈ own := by
      by_contra hn
      simp [mine, hn] at h1
    refine ⟨?_, ?_, hd⟩
    · have e : mine own (H.set a o) = (mine own H).put a o := by
        funext b
        unfold mine Mem.put
        by_cases hb : b = a
        · subst hb
          rw [if_pos ha, if_pos rfl, List.getElem?_set_self (hi b ha)]
        · rw [if_neg hb, List.getElem?_set_ne (Ne.symm hb)]
      show Wp K k (mine own (H.set a o)) Q
      rw [e]
      exact h2
    · intro b q hb
      show (H.set a o)[b]? = some q
      rw [List.getElem?_set_ne (fun e => by subst e; rw [hd _ ha] at hb; cases hb)]
      exact hK b q hb
  | allocThen o k =>
    have hn : H.length ∉ own := fun hm => Nat.lt_irrefl _ (hi _ hm)
    refine ⟨?_, Mem.grow hK o, ?_⟩
    · have e : mine (H.length :: own) (H ++ [o]) = (mine own H).put H.length o := by
        funext b
        show (if b ∈ H.length :: own then (H ++ [o])[b]? else none) =
          if b = H.length then some o else if b ∈ own then H[b]? else none
        by_cases hb : b = H.length
        · subst hb
          simp
        · rw [if_neg hb]
          by_cases hbo : b ∈ own
          · rw [if_pos hbo, if_pos (List.mem_cons_of_mem _ hbo), List.getElem?_append_left (hi b hbo)]
          · rw [if_neg hbo, if_neg]
            intro hm
            rcases List.mem_cons.1 hm with hm | hm
            · exact hb hm
            · exact hbo hm
      show Wp K (k H.length) (mine (H.length :: own) (H ++ [o])) Q
      rw [e]
      exact h H.length (Mem.fresh hK) (by simp [mine, hn])
    · intro a ha
      rcases List.mem_cons.1 ha with rfl | ha
      · exact Mem.fresh hK
      · exact hd a ha

/-- Objects the method has created and does not change any more may be counted among those it relies on. -/
theorem Wp.adopt {K M : Mem} {Q : Out α → Mem → Prop} : ∀ {x : HM α} {O N : Mem}, Wp (K.or M) x O Q →
    M.Le N → O.Le N → (∀ a, O a = none → M a = none → N a = none) → (∀ a, O a = none ∨ M a = none) →
    Wp K x N (fun out N' => M.Le N' ∧ ∃ O', Q out O')
  | .done o, O, N, h, hM, hO, _, _ => ⟨hM, O, h⟩
  | .readThen a k, O, N, ⟨o, h1, h2⟩, hM, hO, hn, hd => by
    refine ⟨o, ?_, Wp.adopt h2 hM hO hn hd⟩
    rcases h1 with h1 | h1
    · unfold Mem.or at h1
      cases hk : K a with
      | none => rw [hk] at h1; exact .inr (hM a o h1)
      | some p => rw [hk] at h1; exact .inl h1
    · exact .inr (hO a o h1)
  | .writeThen a o k, O, N, ⟨h1, h2⟩, hM, hO, hn, hd => by
    obtain ⟨p, hp⟩ := Option.isSome_iff_exists.1 h1
    have hMa : M a = none := by
      rcases hd a with e | e
      · rw [hp] at e; cases e
      · exact e
    refine ⟨by rw [hO a p hp]; rfl, Wp.adopt h2 ?_ ?_ ?_ ?_⟩
    · intro b q hb
      rw [Mem.put_ne (fun e => by subst e; rw [hMa] at hb; cases hb)]
      exact hM b q hb
    · intro b q hb
      by_cases e : b = a
      · subst e; rw [Mem.put_self] at hb ⊢; exact hb
      · rw [Mem.put_ne e] at hb ⊢; exact hO b q hb
    · intro b hb1 hb2
      by_cases e : b = a
      · subst e; rw [Mem.put_self] at hb1; cases hb1
      · rw [Mem.put_ne e] at hb1 ⊢; exact hn b hb1 hb2
    · intro b
      by_cases e : b = a
      · subst e; exact .inr hMa
      · rw [Mem.put_ne e]; exact hd b
  | .allocThen o k, O, N, h, hM, hO, hn, hd => by
    intro a hKa hNa
    have hMa : M a = none := by
      cases e : M a with
      | none => rfl
      | some p => rw [hM a p e] at hNa; cases hNa
    have hOa : O a = none := by
      cases e : O a with
      | none => rfl
      | some p => rw [hO a p e] at hNa; cases hNa
    refine Wp.adopt (h a (Mem.or_none.2 ⟨hKa, hMa⟩) hOa) ?_ ?_ ?_ ?_
    · intro b q hb
      rw [Mem.put_ne (fun e => by subst e; rw [hMa] at hb; cases hb)]
      exact hM b q hb
    · intro b q hb
      by_cases e : b = a
      · subst e; rw [Mem.put_self] at hb ⊢; exact hb
      · rw [Mem.put_ne e] at hb ⊢; exact hO b q hb
    · intro b hb1 hb2
      by_cases e : b = a
      · subst e; rw [Mem.put_self] at hb1; cases hb1
      · rw [Mem.put_ne e] at hb1 ⊢; exact hn b hb1 hb2
    · intro b
      by_cases e : b = a
      · subst e; exact .inr hMa
      · rw [Mem.put_ne e]; exact hd b

theorem Gives.adopt {β : Type} {K M : Mem} {x : HM α} {r : Result β} {R : α → β → Prop} (h : Gives (K.or M) x r R) :
    Wp K x M (fun out N => M.Le N ∧ EndsLike r R out) :=
  (Wp.adopt (h (fun _ => none)) Mem.Le.refl (fun _ _ e => by simp at e) (fun _ _ e => e) (fun _ => .inl rfl)).mono
    (fun _ _ ⟨h1, _, _, h2⟩ => ⟨h1, h2⟩)

/-! ### Making a tree -/

mutual
/-- How far to look to see the whole tree. -/
def tall : Node → Nat
  | .cmp l r _ _ => max (tall l) (tall r) + 1
  | .inn _ items => tallAll items + 1
  | .array _ _ items => tallAll items + 1
  | .and_ l r => max (tall l) (tall r) + 1
  | .or_ l r => max (tall l) (tall r) + 1
  | .not_ l => tall l + 1
  | .arith _ l r => max (tall l) (tall r) + 1
  | .neg l => tall l + 1
  | .func _ items => tallAll items + 1
  | .range _ _ _ _ _ => 1
  | .unary _ _ => 1
  | .field _ => 1
/-- The same for a list. -/
def tallAll : List Node → Nat
  | [] => 0
  | n :: ns => max (tall n) (tallAll ns)
end

/-- The steps that make a tree. -/
def MakesAt (n : Node) : Prop := ∀ (K O : Mem) (Q : Out Addr → Mem → Prop),
  (∀ a O', O.Le O' → seeTree 0 (tall n) O' (some a) = some n → Q (.ok a) O') → Wp K (build n) O Q

/-- The same for an item list. -/
def MakesAllAt (ns : List Node) : Prop := ∀ (K O : Mem) (Q : Out (List (Option Addr)) → Mem → Prop),
  (∀ as O', O.Le O' → allSome (seeTree 0 (tallAll ns) O') as = some ns → Q (.ok as) O') → Wp K (buildAll ns) O Q

theorem alloc_wp {K O : Mem} {o : Obj} {Q : Out Addr → Mem → Prop}
    (h : ∀ a, O a = none → Q (.ok a) (O.put a o)) : Wp K (HM.alloc o) O Q := fun a _ ha => h a ha

theorem makes_leaf {n : Node} {o : NodeObj} (hb : build n = alloc (.node o)) (ht : tall n = 1)
    (hv : ∀ G : Mem, View 0 0 G o n) : MakesAt n := by
  intro K O Q hq
  rw [hb]
  refine alloc_wp (fun a ha => hq a _ (Mem.le_put ha) ?_)
  rw [ht]
  exact seeTree_of_view Mem.put_self (hv _)

theorem makes_one {l n : Node} (hl : MakesAt l) (f : Addr → NodeObj)
    (hb : build n = (do let a ← build l; alloc (.node (f a)))) (ht : tall n = tall l + 1)
    (hv : ∀ k (G : Mem) a, seeTree 0 k G (some a) = some l → View 0 k G (f a) n) : MakesAt n := by
  intro K O Q hq
  rw [hb]
  refine Wp.bind (hl K O _ (fun a O1 l1 t1 => ?_))
  refine alloc_wp (fun b hb => hq b _ (l1.trans (Mem.le_put hb)) ?_)
  rw [ht]
  exact seeTree_of_view Mem.put_self (hv _ _ _ (seeTree_mono (Mem.le_put hb) t1))

theorem makes_two {l r n : Node} (hl : MakesAt l) (hr : MakesAt r) (f : Addr → Addr → NodeObj)
    (hb : build n = (do let a ← build l; let b ← build r; alloc (.node (f a b))))
    (ht : tall n = max (tall l) (tall r) + 1)
    (hv : ∀ k (G : Mem) a b, seeTree 0 k G (some a) = some l → seeTree 0 k G (some b) = some r →
      View 0 k G (f a b) n) : MakesAt n := by
  intro K O Q hq
  rw [hb]
  refine Wp.bind (hl K O _ (fun a O1 l1 t1 => Wp.bind (hr K O1 _ (fun b O2 l2 t2 => ?_))))
  refine alloc_wp (fun c hc => hq c _ ((l1.trans l2).trans (Mem.le_put hc)) ?_)
  rw [ht]
  refine seeTree_of_view Mem.put_self (hv _ _ _ _ ?_ ?_)
  · exact seeTree_mono (l2.trans (Mem.le_put hc)) (seeTree_le (Nat.le_refl _) (Nat.le_max_left _ _) t1)
  · exact seeTree_mono (Mem.le_put hc) (seeTree_le (Nat.le_refl _) (Nat.le_max_right _ _) t2)

theorem makes_items {ns : List Node} {n : Node} (hns : MakesAllAt ns) (f : Addr → NodeObj)
    (hb : build n = (do let xs ← buildAll ns; let l ← alloc (.nodes xs); alloc (.node (f l))))
    (ht : tall n = tallAll ns + 1)
    (hv : ∀ k (G : Mem) a xs, G a = some (.nodes xs) → allSome (seeTree 0 k G) xs = some ns → View 0 k G (f a) n) :
    MakesAt n := by
  intro K O Q hq
  rw [hb]
  refine Wp.bind (hns K O _ (fun as O1 l1 t1 => Wp.alloc (fun l _ hl => alloc_wp (fun b hb => ?_))))
  refine hq b _ ((l1.trans (Mem.le_put hl)).trans (Mem.le_put hb)) ?_
  rw [ht]
  refine seeTree_of_view Mem.put_self (hv _ _ _ as (Mem.le_put hb _ _ Mem.put_self) ?_)
  exact allSome_mono (fun x y h => seeTree_mono ((Mem.le_put hl).trans (Mem.le_put hb)) h) t1

mutual
theorem makes : ∀ n : Node, MakesAt n
  | .cmp l r op dt => makes_two (makes l) (makes r) (fun a b => .cmp (some a) (some b) op dt) (by rw [build]) (by rw [tall])
      (fun _ _ _ _ h1 h2 => .cmp h1 h2)
  | .range f lo hi loT hiT => makes_leaf (by rw [build]) (by rw [tall]) (fun G => .range (see_imm _ _ _) (see_imm _ _ _))
  | .inn f items => makes_items (makesAll items) (fun a => .inn f a) (by rw [build]) (by rw [tall])
      (fun _ _ _ _ h1 h2 => .inn h1 h2)
  | .array f op items => makes_items (makesAll items) (fun a => .array f op a) (by rw [build]) (by rw [tall])
      (fun _ _ _ _ h1 h2 => .array h1 h2)
  | .unary dt v => makes_leaf (by rw [build]) (by rw [tall]) (fun G => .unary (see_imm _ _ _))
  | .and_ l r => makes_two (makes l) (makes r) (fun a b => .bool .and (some a) (some b)) (by rw [build]) (by rw [tall])
      (fun _ _ _ _ h1 h2 => .and_ h1 h2)
  | .or_ l r => makes_two (makes l) (makes r) (fun a b => .bool .or (some a) (some b)) (by rw [build]) (by rw [tall])
      (fun _ _ _ _ h1 h2 => .or_ h1 h2)
  | .not_ l => makes_one (makes l) (fun a => .bool .not (some a) none) (by rw [build]) (by rw [tall])
      (fun _ _ _ h1 => .not_ h1)
  | .field f => makes_leaf (by rw [build]) (by rw [tall]) (fun G => .field)
  | .arith op l r => makes_two (makes l) (makes r) (fun a b => .arith (some op) (some a) (some b)) (by rw [build])
      (by rw [tall]) (fun _ _ _ _ h1 h2 => .arith h1 h2)
  | .neg l => makes_one (makes l) (fun a => .arith none (some a) none) (by rw [build]) (by rw [tall])
      (fun _ _ _ h1 => .neg h1)
  | .func f items => makes_items (makesAll items) (fun a => .func f a) (by rw [build]) (by rw [tall])
      (fun _ _ _ _ h1 h2 => .func h1 h2)
theorem makesAll : ∀ ns : List Node, MakesAllAt ns
  | [] => fun K O Q hq => by rw [buildAll]; exact hq [] O Mem.Le.refl rfl
  | n :: ns => by
    intro K O Q hq
    rw [buildAll]
    refine Wp.bind (makes n K O _ (fun a O1 l1 t1 => Wp.bind (makesAll ns K O1 _ (fun as O2 l2 t2 => ?_))))
    refine hq (some a :: as) O2 (l1.trans l2) ?_
    rw [allSome, tallAll]
    have x1 := seeTree_mono l2 (seeTree_le (Nat.le_refl _) (Nat.le_max_left (tall n) (tallAll ns)) t1)
    have x2 : allSome (seeTree 0 (max (tall n) (tallAll ns)) O2) as = some ns :=
      allSome_mono (fun x y h => seeTree_le (Nat.le_refl _) (Nat.le_max_right (tall n) (tallAll ns)) h) t2
    rw [x1, x2]
end

theorem new_fr {S : Addr → Prop} {o : Obj} : Fr S (HM.alloc o) (fun _ => True) := fun _ _ _ _ => trivial

mutual
theorem build_fr {S : Addr → Prop} : ∀ n : Node, Fr S (build n) (fun _ => True)
  | .cmp l r op dt => by
    rw [build]
    exact Fr.bind (build_fr l) (fun _ _ => Fr.bind (build_fr r) (fun _ _ => new_fr))
  | .range f lo hi loT hiT => by rw [build]; exact new_fr
  | .inn f items => by
    rw [build]
    exact Fr.bind (buildAll_fr items) (fun _ _ => Fr.bind Fr.alloc (fun _ _ => new_fr))
  | .array f op items => by
    rw [build]
    exact Fr.bind (buildAll_fr items) (fun _ _ => Fr.bind Fr.alloc (fun _ _ => new_fr))
  | .unary dt v => by rw [build]; exact new_fr
  | .and_ l r => by
    rw [build]
    exact Fr.bind (build_fr l) (fun _ _ => Fr.bind (build_fr r) (fun _ _ => new_fr))
  | .or_ l r => by
    rw [build]
    exact Fr.bind (build_fr l) (fun _ _ => Fr.bind (build_fr r) (fun _ _ => new_fr))
  | .not_ l => by rw [build]; exact Fr.bind (build_fr l) (fun _ _ => new_fr)
  | .field f => by rw [build]; exact new_fr
  | .arith op l r => by
    rw [build]
    exact Fr.bind (build_fr l) (fun _ _ => Fr.bind (build_fr r) (fun _ _ => new_fr))
  | .neg l => by rw [build]; exact Fr.bind (build_fr l) (fun _ _ => new_fr)
  | .func f items => by
    rw [build]
    exact Fr.bind (buildAll_fr items) (fun _ _ => Fr.bind Fr.alloc (fun _ _ => new_fr))
theorem buildAll_fr {S : Addr → Prop} : ∀ ns : List Node, Fr S (buildAll ns) (fun _ => True)
  | [] => by rw [buildAll]; exact Fr.pure trivial
  | n :: ns => by
    rw [buildAll]
    exact Fr.bind (build_fr n) (fun _ _ => Fr.bind (buildAll_fr ns) (fun _ _ => Fr.pure trivial))
end

theorem parseH_fr {P : Request → Result Node} {r : Request} {S : Addr → Prop} : Fr S (parseH P r) (fun _ => True) :=
  Fr.bind Fr.lift (fun n _ => build_fr n)

theorem on_fr {t : Job} {a : Addr} {S : Addr → Prop} : Fr S (t.on a) (fun _ => True) := by
  unfold Job.on
  split
  · exact Fr.bind (evalBoolH_fr _ _) (fun _ _ => Fr.pure trivial)
  · exact Fr.bind (evalArithH_fr _ _) (fun _ _ => Fr.pure trivial)
  · exact Fr.pure trivial

end BoolParser
