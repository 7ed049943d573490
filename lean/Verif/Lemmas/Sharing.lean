import Verif.Lemmas.HeapEval
import Verif.Spec.Heap
/-!
# Trees on the heap that nobody changes
-/

namespace BoolParser
open HM Spec

/-! ### What a change elsewhere leaves alone -/

theorem allSome_mem {α β : Type} {f g : α → Option β} : ∀ {xs : List α} {ys : List β},
    (∀ x ∈ xs, ∀ y, f x = some y → g x = some y) → allSome f xs = some ys → allSome g xs = some ys
  | [], ys, _, e => e
  | x :: xs, ys, h, e => by
    rw [allSome] at e ⊢
    split at e
    · next y ys' h1 h2 =>
      rw [h x (by simp) y h1, allSome_mem (fun x' hx' => h x' (by simp [hx'])) h2]; exact e
    · cases e

theorem entriesSome_mem {α β : Type} {f g : α → Option β} : ∀ {xs : List (JStr × α)} {ys : List (JStr × β)},
    (∀ x ∈ xs, ∀ y, f x.2 = some y → g x.2 = some y) → entriesSome f xs = some ys → entriesSome g xs = some ys
  | [], ys, _, e => e
  | (k, x) :: xs, ys, h, e => by
    rw [entriesSome] at e ⊢
    split at e
    · next y ys' h1 h2 =>
      rw [h (k, x) (by simp) y h1, entriesSome_mem (fun x' hx' => h x' (by simp [hx'])) h2]; exact e
    · cases e

theorem SeesObj.imp_mem {k j : Nat} {H G : Mem} {o : Obj} {v : Value}
    (h : ∀ r v, (∀ b ∈ refLink r, b ∈ links o) → see k H r = some v → see j G r = some v)
    (hs : SeesObj k H o v) : SeesObj j G o v := by
  have hl : ∀ (xs : List Ref), ∀ x ∈ xs, ∀ b ∈ refLink x, b ∈ xs.flatMap refLink :=
    fun xs x hx b hb => List.mem_flatMap.2 ⟨x, hx, hb⟩
  cases hs with
  | list e => exact .list (allSome_mem (fun x hx y hy => h x y (hl _ x hx) hy) e)
  | coll e => exact .coll (allSome_mem (fun x hx y hy => h x y (hl _ x hx) hy) e)
  | arr e => exact .arr (allSome_mem (fun x hx y hy => h x y (hl _ x hx) hy) e)
  | map e =>
    exact .map (entriesSome_mem (fun x hx y hy => h x.2 y (fun b hb => List.mem_flatMap.2 ⟨x, hx, hb⟩) hy) e)

theorem seeTree_of_view {m k : Nat} {H : Mem} {a : Addr} {o : NodeObj} {n : Node} (ha : H a = some (.node o))
    (h : View m k H o n) : seeTree m (k + 1) H (some a) = some n := by
  rw [seeTree, ha]
  cases h with
  | cmp h1 h2 => simp [h1, h2]
  | range h1 h2 => simp [h1, h2]
  | inn h1 h2 => simp [h1, h2]
  | array h1 h2 => simp [h1, h2]
  | unary h1 => simp [h1]
  | and_ h1 h2 => simp [h1, h2]
  | or_ h1 h2 => simp [h1, h2]
  | not_ h1 => simp [h1]
  | field => rfl
  | arith h1 h2 => simp [h1, h2]
  | neg h1 => simp [h1]
  | func h1 h2 => simp [h1, h2]

theorem View.imp {m k m' k' : Nat} {H G : Mem} {o : NodeObj} {n : Node}
    (hs : ∀ r v, (∀ b ∈ refLink r, b ∈ nodeLinks o) → see m H r = some v → see m' G r = some v)
    (ht : ∀ a n, (∀ b ∈ a.toList, b ∈ nodeLinks o) → seeTree m k H a = some n → seeTree m' k' G a = some n)
    (hi : ∀ i ns, i ∈ nodeLinks o → H i = some (.nodes ns) → G i = some (.nodes ns) ∧
      ∀ a ∈ ns, ∀ n, seeTree m k H a = some n → seeTree m' k' G a = some n)
    (h : View m k H o n) : View m' k' G o n := by
  cases h with
  | cmp h1 h2 =>
    exact .cmp (ht _ _ (fun b hb => List.mem_append_left _ hb) h1) (ht _ _ (fun b hb => List.mem_append_right _ hb) h2)
  | range h1 h2 =>
    exact .range (hs _ _ (fun b hb => List.mem_append_left _ hb) h1) (hs _ _ (fun b hb => List.mem_append_right _ hb) h2)
  | inn h1 h2 =>
    obtain ⟨g1, g2⟩ := hi _ _ (List.mem_singleton.2 rfl) h1
    exact .inn g1 (allSome_mem g2 h2)
  | array h1 h2 =>
    obtain ⟨g1, g2⟩ := hi _ _ (List.mem_singleton.2 rfl) h1
    exact .array g1 (allSome_mem g2 h2)
  | unary h1 => exact .unary (hs _ _ (fun b hb => hb) h1)
  | and_ h1 h2 =>
    exact .and_ (ht _ _ (fun b hb => List.mem_append_left _ hb) h1) (ht _ _ (fun b hb => List.mem_append_right _ hb) h2)
  | or_ h1 h2 =>
    exact .or_ (ht _ _ (fun b hb => List.mem_append_left _ hb) h1) (ht _ _ (fun b hb => List.mem_append_right _ hb) h2)
  | not_ h1 => exact .not_ (ht _ _ (fun b hb => List.mem_append_left _ hb) h1)
  | field => exact .field
  | arith h1 h2 =>
    exact .arith (ht _ _ (fun b hb => List.mem_append_left _ hb) h1) (ht _ _ (fun b hb => List.mem_append_right _ hb) h2)
  | neg h1 => exact .neg (ht _ _ (fun b hb => List.mem_append_left _ hb) h1)
  | func h1 h2 =>
    obtain ⟨g1, g2⟩ := hi _ _ (List.mem_singleton.2 rfl) h1
    exact .func g1 (allSome_mem g2 h2)

/-- A deeper look sees the same tree. -/
theorem seeTree_le {m m' : Nat} (hm : m ≤ m') : ∀ {k k' : Nat}, k ≤ k' → ∀ {H : Mem} {a : Option Addr} {n : Node},
    seeTree m k H a = some n → seeTree m' k' H a = some n
  | k, k', hk, H, a, n, h => by
    obtain ⟨j, b, o, rfl, rfl, hb, hv⟩ := seeTree_inv h
    obtain ⟨j', rfl⟩ : ∃ j', k' = j' + 1 := ⟨k' - 1, by omega⟩
    have hj : j ≤ j' := by omega
    exact seeTree_of_view hb (hv.imp (fun _ _ _ h => see_le hm h) (fun _ _ _ h => seeTree_le hm hj h)
      (fun _ _ _ h => ⟨h, fun _ _ _ h => seeTree_le hm hj h⟩))
  termination_by k => k

/-- More objects do not change a tree. -/
theorem seeTree_mono {H0 H : Mem} (hp : H0.Le H) {m : Nat} : ∀ {k : Nat} {a : Option Addr} {n : Node},
    seeTree m k H0 a = some n → seeTree m k H a = some n
  | k, a, n, h => by
    obtain ⟨j, b, o, rfl, rfl, hb, hv⟩ := seeTree_inv h
    exact seeTree_of_view (hp _ _ hb) (hv.imp (fun _ _ _ h => see_mono hp m h)
      (fun _ _ _ h => seeTree_mono hp h) (fun _ _ _ h => ⟨hp _ _ h, fun _ _ _ h => seeTree_mono hp h⟩))
  termination_by k => k

theorem shows_mono {H G : Heap} (hp : H <+: G) {r : Ref} {v : Value} (h : Shows H r v) : Shows G r v := by
  obtain ⟨m, h⟩ := h
  exact ⟨m, see_mono (mem_prefix hp) m h⟩

theorem showsTree_mono {H G : Heap} (hp : H <+: G) {a : Addr} {n : Node} (h : ShowsTree H a n) : ShowsTree G a n := by
  obtain ⟨m, k, h⟩ := h
  exact ⟨m, k, seeTree_mono (mem_prefix hp) h⟩

section
variable {H G : Mem} {P : Addr → Prop} (hP : ∀ {a o b}, P a → H a = some o → b ∈ links o → P b)
  (hG : ∀ {a o}, P a → H a = some o → G a = some o)
include hP hG

/-- What is seen depends only on the objects a reference leads to. -/
theorem see_on : ∀ (k : Nat) {r : Ref} {v : Value}, (∀ b ∈ refLink r, P b) → see k H r = some v → see k G r = some v
  | k, .imm w, v, _, h => by rw [see_imm] at h ⊢; exact h
  | k, .ptr a, v, hr, h => by
    obtain ⟨j, o, rfl, ha, hs⟩ := see_ptr h
    have hra := hr a (List.mem_singleton.2 rfl)
    exact see_of_obj (hG hra ha) (hs.imp_mem (fun r v hl h => see_on j (fun b hb => hP hra ha (hl b hb)) h))

theorem seeTree_on {m : Nat} : ∀ {k : Nat} {a : Option Addr} {n : Node}, (∀ b ∈ a.toList, P b) →
    seeTree m k H a = some n → seeTree m k G a = some n
  | k, a, n, hr, h => by
    obtain ⟨j, b, o, rfl, rfl, hb, hv⟩ := seeTree_inv h
    have hrb := hr b (by simp)
    have hl : ∀ x ∈ nodeLinks o, P x := fun x hx => hP hrb hb hx
    refine seeTree_of_view (hG hrb hb) (hv.imp (fun r v hs h => see_on hP hG m (fun x hx => hl x (hs x hx)) h)
      (fun a n hs h => seeTree_on (fun x hx => hl x (hs x hx)) h) (fun i ns hi h => ⟨hG (hl i hi) h, ?_⟩))
    intro a ha n hn
    refine seeTree_on (fun x hx => hP (hl i hi) h ?_) hn
    exact List.mem_flatMap.2 ⟨a, ha, hx⟩
  termination_by k => k

end

theorem seeTree_change {H : Heap} {c : Addr} {o' : Obj} {m k : Nat} {a : Option Addr} {n : Node}
    (hr : ∀ b ∈ a.toList, ¬ LeadsTo H.mem b c) (h : seeTree m k H.mem a = some n) :
    seeTree m k (Heap.mem (H.set c o')) a = some n := by
  refine seeTree_on (P := fun b => ¬ LeadsTo H.mem b c) (fun h1 h2 h3 h4 => h1 (.step h2 h3 h4)) ?_ hr h
  intro a o h1 h2
  show (H.set c o')[a]? = some o
  rw [List.getElem?_set_ne (fun e => h1 (by subst e; exact LeadsTo.here _))]
  exact h2

/-! ### New trees -/

/-- A tree is built from new objects only. -/
def Builds (n : Node) : Prop :=
  ∀ H : Heap, ∃ a extra, build n H = (.ok a, H ++ extra) ∧ H.length ≤ a ∧
    (∀ o ∈ extra, ∀ b ∈ links o, H.length ≤ b) ∧ ∃ k, seeTree 0 k (Heap.mem (H ++ extra)) (some a) = some n

/-- The same for an item list. -/
def BuildsAll (ns : List Node) : Prop :=
  ∀ H : Heap, ∃ as extra, buildAll ns H = (.ok as, H ++ extra) ∧ (∀ b ∈ as.flatMap Option.toList, H.length ≤ b) ∧
    (∀ o ∈ extra, ∀ b ∈ links o, H.length ≤ b) ∧ ∃ k, allSome (seeTree 0 k (Heap.mem (H ++ extra))) as = some ns

theorem alloc_run (o : Obj) (H : Heap) : alloc o H = (.ok H.length, H ++ [o]) := rfl

theorem builds_leaf {n : Node} {o : NodeObj} (hb : build n = alloc (.node o)) (hl : nodeLinks o = [])
    (hv : ∀ G : Mem, View 0 0 G o n) : Builds n := by
  intro H
  refine ⟨H.length, [.node o], by rw [hb, alloc_run], Nat.le_refl _, ?_, 1, seeTree_of_view (o := o) (by simp [Heap.mem]) (hv _)⟩
  intro o' ho' b hb'
  rw [List.mem_singleton.1 ho'] at hb'
  change b ∈ nodeLinks o at hb'
  rw [hl] at hb'
  cases hb'

theorem builds_one {l n : Node} (hl : Builds l) (f : Addr → NodeObj)
    (hb : build n = (do let a ← build l; alloc (.node (f a)))) (hk : ∀ a, nodeLinks (f a) = [a])
    (hv : ∀ k (G : Mem) a, seeTree 0 k G (some a) = some l → View 0 k G (f a) n) : Builds n := by
  intro H
  obtain ⟨a, e1, h1, g1, q1, k1, t1⟩ := hl H
  refine ⟨(H ++ e1).length, e1 ++ [.node (f a)], ?_, by simp, ?_, k1 + 1, ?_⟩
  · rw [hb, HM_bind_ok h1, alloc_run, List.append_assoc]
  · intro o ho b hb'
    rcases List.mem_append.1 ho with ho | ho
    · exact q1 o ho b hb'
    · rw [List.mem_singleton.1 ho] at hb'
      change b ∈ nodeLinks (f a) at hb'
      rw [hk] at hb'
      rw [List.mem_singleton.1 hb']
      exact g1
  · refine seeTree_of_view (o := f a) (by simp [Heap.mem]) (hv _ _ _ ?_)
    exact seeTree_mono (mem_prefix ⟨[.node (f a)], by simp⟩) t1

theorem builds_two {l r n : Node} (hl : Builds l) (hr : Builds r) (f : Addr → Addr → NodeObj)
    (hb : build n = (do let a ← build l; let b ← build r; alloc (.node (f a b))))
    (hk : ∀ a b, nodeLinks (f a b) = [a, b])
    (hv : ∀ k (G : Mem) a b, seeTree 0 k G (some a) = some l → seeTree 0 k G (some b) = some r → View 0 k G (f a b) n) :
    Builds n := by
  intro H
  obtain ⟨a, e1, h1, g1, q1, k1, t1⟩ := hl H
  obtain ⟨b, e2, h2, g2, q2, k2, t2⟩ := hr (H ++ e1)
  have hle : H.length ≤ (H ++ e1).length := by simp
  refine ⟨(H ++ e1 ++ e2).length, e1 ++ (e2 ++ [.node (f a b)]), ?_, by simp, ?_, max k1 k2 + 1, ?_⟩
  · rw [hb, HM_bind_ok h1, HM_bind_ok h2, alloc_run]
    simp only [List.append_assoc]
  · intro o ho c hc
    rcases List.mem_append.1 ho with ho | ho
    · exact q1 o ho c hc
    · rcases List.mem_append.1 ho with ho | ho
      · exact Nat.le_trans hle (q2 o ho c hc)
      · rw [List.mem_singleton.1 ho] at hc
        change c ∈ nodeLinks (f a b) at hc
        rw [hk] at hc
        rcases List.mem_cons.1 hc with rfl | hc
        · exact g1
        · rw [List.mem_singleton.1 hc]
          exact Nat.le_trans hle g2
  · refine seeTree_of_view (o := f a b) (by simp [Heap.mem]) (hv _ _ _ _ ?_ ?_)
    · exact seeTree_mono (mem_prefix ⟨e2 ++ [.node (f a b)], by simp⟩) (seeTree_le (Nat.le_refl _) (Nat.le_max_left _ _) t1)
    · exact seeTree_mono (mem_prefix ⟨[.node (f a b)], by simp⟩) (seeTree_le (Nat.le_refl _) (Nat.le_max_right _ _) t2)

theorem builds_items {ns : List Node} {n : Node} (hns : BuildsAll ns) (f : Addr → NodeObj)
    (hb : build n = (do let xs ← buildAll ns; let l ← alloc (.nodes xs); alloc (.node (f l))))
    (hk : ∀ a, nodeLinks (f a) = [a])
    (hv : ∀ k (G : Mem) a xs, G a = some (.nodes xs) → allSome (seeTree 0 k G) xs = some ns → View 0 k G (f a) n) :
    Builds n := by
  intro H
  obtain ⟨as, e1, h1, g1, q1, k1, t1⟩ := hns H
  refine ⟨(H ++ e1 ++ [Obj.nodes as]).length, e1 ++ ([.nodes as] ++ [.node (f (H ++ e1).length)]), ?_, by simp, ?_,
    k1 + 1, ?_⟩
  · rw [hb, HM_bind_ok h1, HM_bind_ok (alloc_run _ _), alloc_run]
    simp only [List.append_assoc]
  · intro o ho c hc
    rcases List.mem_append.1 ho with ho | ho
    · exact q1 o ho c hc
    · rcases List.mem_append.1 ho with ho | ho
      · rw [List.mem_singleton.1 ho] at hc
        exact g1 c hc
      · rw [List.mem_singleton.1 ho] at hc
        change c ∈ nodeLinks (f _) at hc
        rw [hk] at hc
        rw [List.mem_singleton.1 hc]
        simp
  · refine seeTree_of_view (o := f (H ++ e1).length) (by simp [Heap.mem]) (hv _ _ _ as (by simp [Heap.mem]) ?_)
    exact allSome_mono (fun x y h => seeTree_mono (mem_prefix ⟨[.nodes as] ++ [.node (f (H ++ e1).length)], by simp⟩) h) t1

mutual
theorem builds : ∀ n : Node, Builds n
  | .cmp l r op dt => builds_two (builds l) (builds r) (fun a b => .cmp (some a) (some b) op dt) (by rw [build])
      (fun _ _ => rfl) (fun _ _ _ _ h1 h2 => .cmp h1 h2)
  | .range f lo hi loT hiT => builds_leaf (by rw [build]) rfl (fun G => .range (see_imm _ _ _) (see_imm _ _ _))
  | .inn f items => builds_items (buildsAll items) (fun a => .inn f a) (by rw [build]) (fun _ => rfl)
      (fun _ _ _ _ h1 h2 => .inn h1 h2)
  | .array f op items => builds_items (buildsAll items) (fun a => .array f op a) (by rw [build]) (fun _ => rfl)
      (fun _ _ _ _ h1 h2 => .array h1 h2)
  | .unary dt v => builds_leaf (by rw [build]) rfl (fun G => .unary (see_imm _ _ _))
  | .and_ l r => builds_two (builds l) (builds r) (fun a b => .bool .and (some a) (some b)) (by rw [build])
      (fun _ _ => rfl) (fun _ _ _ _ h1 h2 => .and_ h1 h2)
  | .or_ l r => builds_two (builds l) (builds r) (fun a b => .bool .or (some a) (some b)) (by rw [build])
      (fun _ _ => rfl) (fun _ _ _ _ h1 h2 => .or_ h1 h2)
  | .not_ l => builds_one (builds l) (fun a => .bool .not (some a) none) (by rw [build]) (fun _ => rfl)
      (fun _ _ _ h1 => .not_ h1)
  | .field f => builds_leaf (by rw [build]) rfl (fun G => .field)
  | .arith op l r => builds_two (builds l) (builds r) (fun a b => .arith (some op) (some a) (some b)) (by rw [build])
      (fun _ _ => rfl) (fun _ _ _ _ h1 h2 => .arith h1 h2)
  | .neg l => builds_one (builds l) (fun a => .arith none (some a) none) (by rw [build]) (fun _ => rfl)
      (fun _ _ _ h1 => .neg h1)
  | .func f items => builds_items (buildsAll items) (fun a => .func f a) (by rw [build]) (fun _ => rfl)
      (fun _ _ _ _ h1 h2 => .func h1 h2)
theorem buildsAll : ∀ ns : List Node, BuildsAll ns
  | [] => fun H => ⟨[], [], by rw [buildAll]; simp; rfl, by simp, by simp, 0, rfl⟩
  | n :: ns => by
    intro H
    obtain ⟨a, e1, h1, g1, q1, k1, t1⟩ := builds n H
    obtain ⟨as, e2, h2, g2, q2, k2, t2⟩ := buildsAll ns (H ++ e1)
    have hle : H.length ≤ (H ++ e1).length := by simp
    refine ⟨some a :: as, e1 ++ e2, ?_, ?_, ?_, max k1 k2, ?_⟩
    · rw [buildAll, HM_bind_ok h1, HM_bind_ok h2]
      simp only [List.append_assoc]
      rfl
    · intro b hb
      rw [List.flatMap_cons] at hb
      rcases List.mem_append.1 hb with hb | hb
      · rw [List.mem_singleton.1 hb]; exact g1
      · exact Nat.le_trans hle (g2 b hb)
    · intro o ho c hc
      rcases List.mem_append.1 ho with ho | ho
      · exact q1 o ho c hc
      · exact Nat.le_trans hle (q2 o ho c hc)
    · rw [allSome]
      have hp : H ++ e1 <+: H ++ (e1 ++ e2) := ⟨e2, by simp⟩
      have x1 := seeTree_mono (mem_prefix hp) (seeTree_le (Nat.le_refl _) (Nat.le_max_left k1 k2) t1)
      have x2 : allSome (seeTree 0 (max k1 k2) (Heap.mem (H ++ (e1 ++ e2)))) as = some ns := by
        rw [← List.append_assoc]
        exact allSome_mono (fun x y h => seeTree_le (Nat.le_refl _) (Nat.le_max_right k1 k2) h) t2
      rw [x1, x2]
end

/-- From a new tree only new objects can be reached. -/
theorem reaches_new {H extra : Heap} (hq : ∀ o ∈ extra, ∀ b ∈ links o, H.length ≤ b) {a c : Addr}
    (h : LeadsTo (Heap.mem (H ++ extra)) a c) (ha : H.length ≤ a) : H.length ≤ c := by
  induction h with
  | here => exact ha
  | step hg hb _ ih =>
    refine ih (hq _ ?_ _ hb)
    rw [Heap.mem, List.getElem?_append_right ha] at hg
    exact List.mem_of_getElem? hg

/-! ### Evaluation of a tree on the heap -/

theorem evalBoolH_shows (env : Env) {H : Heap} {d a : Addr} {data : Data} {n : Node}
    (hd : Shows H (.ptr d) (.map data)) (hn : ShowsTree H a n) :
    ∃ K, ∀ m k, K ≤ m → K ≤ k → ∃ extra, evalBoolH env m d k (some a) H = (ending (evalBool env data n), H ++ extra) := by
  obtain ⟨m1, h1⟩ := hd
  obtain ⟨m2, k2, h2⟩ := hn
  refine ⟨max (max m1 m2) k2, fun m k hm hk => ?_⟩
  have g1 := see_le (show m1 ≤ m by omega) h1
  have g2 := seeTree_le (show m2 ≤ m by omega) (show k2 ≤ k by omega) h2
  obtain ⟨extra, he⟩ := Fr.prefix_of (fun i => evalBoolH_fr (S := i) (env := env) (m := m) (d := d) k (some a)) H
  refine ⟨extra, ?_⟩
  have h := (evalBoolH_gives (env := env) g1 k g2).runs (mem_prefix (List.prefix_refl H))
  rcases hx : evalBoolH env m d k (some a) H with ⟨o, H'⟩
  rw [hx] at he h
  cases hr : evalBool env data n with
  | ok b =>
    rw [hr] at h
    obtain ⟨_, rfl, rfl⟩ := h
    rw [show H' = H ++ extra from he]; rfl
  | error e =>
    rw [hr] at h
    cases h
    rw [show H' = H ++ extra from he]; rfl

theorem evalArithH_shows (env : Env) {H : Heap} {d a : Addr} {data : Data} {n : Node}
    (hd : Shows H (.ptr d) (.map data)) (hn : ShowsTree H a n) :
    ∃ K, ∀ m k, K ≤ m → K ≤ k → ∃ o extra, evalArithH env m d k (some a) H = (o, H ++ extra) ∧
      match evalArith env data n with
      | .ok v => ∃ r, o = .ok r ∧ Shows H r v
      | .error e => o = .thrown e := by
  obtain ⟨m1, h1⟩ := hd
  obtain ⟨m2, k2, h2⟩ := hn
  refine ⟨max (max m1 m2) k2, fun m k hm hk => ?_⟩
  have g1 := see_le (show m1 ≤ m by omega) h1
  have g2 := seeTree_le (show m2 ≤ m by omega) (show k2 ≤ k by omega) h2
  obtain ⟨extra, he⟩ := Fr.prefix_of (fun i => evalArithH_fr (S := i) (env := env) (m := m) (d := d) k (some a)) H
  have h := (evalArithH_gives (env := env) g1 k g2).runs (mem_prefix (List.prefix_refl H))
  rcases hx : evalArithH env m d k (some a) H with ⟨o, H'⟩
  rw [hx] at he h
  refine ⟨o, extra, by rw [show H' = H ++ extra from he], ?_⟩
  cases hr : evalArith env data n with
  | ok b =>
    rw [hr] at h
    obtain ⟨r, ho, hs⟩ := h
    exact ⟨r, ho, m, hs⟩
  | error e =>
    rw [hr] at h
    exact h

/-! ### Histories -/

variable {P : Request → Result Node}

theorem parseH_ok {r : Request} {n : Node} (h : P r = .ok n) (H : Heap) : ∃ a extra,
    parseH P r H = (.ok a, H ++ extra) ∧ H.length ≤ a ∧ (∀ o ∈ extra, ∀ b ∈ links o, H.length ≤ b) ∧
      ShowsTree (H ++ extra) a n := by
  obtain ⟨a, extra, h1, h2, h3, k, h4⟩ := builds n H
  refine ⟨a, extra, ?_, h2, h3, 0, k, h4⟩
  rw [parseH, HM_bind_ok (a := n) (H' := H) (by rw [h]; rfl), h1]

theorem parseH_error {r : Request} {e : Exn} (h : P r = .error e) (H : Heap) : parseH P r H = (.thrown e, H) := by
  rw [parseH, HM_bind, h]; rfl

theorem parseH_grows (r : Request) (H : Heap) : H <+: (parseH P r H).2 := by
  cases h : P r with
  | ok n =>
    obtain ⟨a, extra, e, _⟩ := parseH_ok h H
    rw [e]; exact List.prefix_append _ _
  | error e => rw [parseH_error h]; exact List.prefix_refl _

theorem findAddr_mem : ∀ {c : List (JStr × Addr)} {k : JStr} {a : Addr}, findAddr c k = some a → (k, a) ∈ c
  | (k', a') :: es, k, a, h => by
    rw [findAddr] at h
    split at h
    · next hk => cases h; rw [hk]; exact List.mem_cons_self
    · exact List.mem_cons_of_mem _ (findAddr_mem h)

/-- Every entry of the cache still shows the tree of one of the requests made. -/
def Tidy (P : Request → Result Node) (rs : List Request) (s : Prog) : Prop :=
  ∀ key a, (key, a) ∈ s.cache → ∃ r n, r ∈ rs ∧ cacheKey r = key ∧ P r = .ok n ∧ ShowsTree s.heap a n

theorem Tidy.weaken {rs rs' : List Request} {s : Prog} (h : Tidy P rs s) (hsub : ∀ r ∈ rs, r ∈ rs') :
    Tidy P rs' s := by
  intro key a hka
  obtain ⟨r, n, h1, h2⟩ := h key a hka
  exact ⟨r, n, hsub r h1, h2⟩

theorem Tidy.grow {rs : List Request} {H G : Heap} {c : List (JStr × Addr)} (h : Tidy P rs ⟨H, c⟩) (hp : H <+: G) :
    Tidy P rs ⟨G, c⟩ := by
  intro key a hka
  obtain ⟨r, n, h1, h2, h3, h4⟩ := h key a hka
  exact ⟨r, n, h1, h2, h3, showsTree_mono hp h4⟩

/-- What a request to the caching parser does in a clean state. -/
theorem node_cached {rs : List Request} {s : Prog} (h : Tidy P rs s) (r : Request) :
    (∃ a t r' n, s.node P .cached r = (.ok a, t) ∧ r' ∈ r :: rs ∧ cacheKey r' = cacheKey r ∧ P r' = .ok n ∧
        ShowsTree t.heap a n ∧ s.heap <+: t.heap ∧ Tidy P (r :: rs) t) ∨
      ∃ e, s.node P .cached r = (.thrown e, s) ∧ P r = .error e := by
  unfold Prog.node
  dsimp only
  cases hf : findAddr s.cache (cacheKey r) with
  | some a =>
    obtain ⟨r', n, h1, h2, h3, h4⟩ := h _ _ (findAddr_mem hf)
    exact .inl ⟨a, s, r', n, rfl, List.mem_cons_of_mem _ h1, h2, h3, h4, List.prefix_refl _,
      h.weaken (fun _ h => List.mem_cons_of_mem _ h)⟩
  | none =>
    cases hP : P r with
    | ok n =>
      obtain ⟨a, extra, e, _, _, ht⟩ := parseH_ok hP s.heap
      refine .inl ⟨a, ⟨s.heap ++ extra, (cacheKey r, a) :: s.cache⟩, r, n, ?_, List.mem_cons_self, rfl, hP, ht,
        List.prefix_append _ _, ?_⟩
      · dsimp only
        rw [e]
      · intro key b hkb
        rcases List.mem_cons.1 hkb with hkb | hkb
        · cases hkb
          exact ⟨r, n, List.mem_cons_self, rfl, hP, ht⟩
        · obtain ⟨r', n', h1, h2, h3, h4⟩ := h key b hkb
          exact ⟨r', n', List.mem_cons_of_mem _ h1, h2, h3, showsTree_mono (List.prefix_append _ _) h4⟩
    | error e =>
      refine .inr ⟨e, ?_, rfl⟩
      dsimp only
      rw [parseH_error hP]

/-- The request made to the caching parser. -/
def asked (src : Source) (r : Request) : List Request :=
  match src with
  | .cached => [r]
  | .plain => []

theorem node_clean {rs : List Request} {s : Prog} (h : Tidy P rs s) (src : Source) (r : Request) :
    s.heap <+: (s.node P src r).2.heap ∧
      Tidy P (asked src r ++ rs) (s.node P src r).2 := by
  cases src with
  | plain =>
    have hp : s.heap <+: (s.node P .plain r).2.heap := parseH_grows r s.heap
    exact ⟨hp, h.grow hp⟩
  | cached =>
    rcases node_cached h r with ⟨a, t, r', n, e, _, _, _, _, hp, hc⟩ | ⟨e, he, _⟩
    · rw [e]; exact ⟨hp, hc⟩
    · rw [he]; exact ⟨List.prefix_refl _, h.weaken (fun _ h => List.mem_cons_of_mem _ h)⟩

theorem step_clean {rs : List Request} {s : Prog} (h : Tidy P rs s) {act : Act} (hl : LeavesCached s act) :
    Tidy P ((cachedRequest act).toList ++ rs) (s.step P act) := by
  cases act with
  | parse src r =>
    have := (node_clean h src r).2
    cases src <;> exact this
  | evaluate env m k src r d =>
    have hc := (node_clean h src r).2
    have : Tidy P (asked src r ++ rs) (s.evaluate P env m k src r d).2 := by
      unfold Prog.evaluate
      rcases hn : s.node P src r with ⟨o, t⟩
      rw [hn] at hc
      cases o with
      | ok a =>
        obtain ⟨extra, he⟩ := Fr.prefix_of (fun i => evalBoolH_fr (S := i) (env := env) (m := m) (d := d) k (some a)) t.heap
        exact Tidy.grow hc (by rw [he]; exact List.prefix_append _ _)
      | thrown e => exact hc
      | stuck => exact hc
    cases src <;> exact this
  | evaluateArith env m k src r d =>
    have hc := (node_clean h src ⟨r, none⟩).2
    have : Tidy P (asked src ⟨r, none⟩ ++ rs)
        (s.evaluateArith P env m k src r d).2 := by
      unfold Prog.evaluateArith
      rcases hn : s.node P src ⟨r, none⟩ with ⟨o, t⟩
      rw [hn] at hc
      cases o with
      | ok a =>
        obtain ⟨extra, he⟩ := Fr.prefix_of (fun i => evalArithH_fr (S := i) (env := env) (m := m) (d := d) k (some a)) t.heap
        exact Tidy.grow hc (by rw [he]; exact List.prefix_append _ _)
      | thrown e => exact hc
      | stuck => exact hc
    cases src <;> exact this
  | evict keep =>
    intro key a hka
    exact h key a (List.mem_of_mem_filter hka)
  | create o => exact h.grow (List.prefix_append _ _)
  | change b o =>
    intro key a hka
    obtain ⟨r, n, h1, h2, h3, m, k, h4⟩ := h key a hka
    refine ⟨r, n, h1, h2, h3, m, k, seeTree_change (fun x hx => ?_) h4⟩
    rw [Option.toList_some, List.mem_singleton] at hx
    rw [hx]
    exact hl key a hka

theorem clean_from : ∀ (acts : List Act) {rs : List Request} {s : Prog}, Tidy P rs s → Careful P s acts →
    Tidy P (acts.filterMap cachedRequest ++ rs) (acts.foldl (Prog.step P) s)
  | [], rs, s, h, _ => h
  | act :: acts, rs, s, h, hc => by
    have := clean_from acts (step_clean h hc.1) hc.2
    refine this.weaken (fun r hr => ?_)
    rw [List.filterMap_cons]
    rcases List.mem_append.1 hr with hr | hr
    · refine List.mem_append_left _ ?_
      cases cachedRequest act with
      | none => exact hr
      | some x => exact List.mem_cons_of_mem _ hr
    · rcases List.mem_append.1 hr with hr | hr
      · refine List.mem_append_left _ ?_
        cases hx : cachedRequest act with
        | none => rw [hx] at hr; cases hr
        | some x =>
          rw [hx] at hr
          rw [List.mem_singleton.1 hr]
          exact List.mem_cons_self
      · exact List.mem_append_right _ hr

theorem clean_after (acts : List Act) (h : Careful P ⟨[], []⟩ acts) :
    Tidy P (acts.filterMap cachedRequest) (Prog.after P acts) := by
  have := clean_from (P := P) acts (rs := []) (s := ⟨[], []⟩) (fun key a h => by cases h) h
  simpa [Prog.after] using this

end BoolParser
