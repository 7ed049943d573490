import Verif.Lemmas.HeapFrame
import Verif.Lemmas.Unfold
import Mathlib.Data.List.Forall2
/-!
# Evaluation on the heap gives what evaluation of values gives
-/

namespace BoolParser
open HM

/-! ### Reading -/

/-- `O'` has what `O` has. -/
def Mem.Le (O O' : Mem) : Prop := ∀ a o, O a = some o → O' a = some o

theorem Mem.Le.refl {O : Mem} : O.Le O := fun _ _ h => h

theorem Mem.Le.trans {O O' O'' : Mem} (h : O.Le O') (h' : O'.Le O'') : O.Le O'' := fun a o e => h' a o (h a o e)

theorem get_lt {H : Heap} {a : Addr} {o : Obj} (h : H[a]? = some o) : a < H.length := by
  rcases Nat.lt_or_ge a H.length with h' | h'
  · exact h'
  · rw [List.getElem?_eq_none h'] at h; cases h

theorem mem_prefix {H0 H : Heap} (h : H0 <+: H) : H0.mem.Le H.mem := by
  intro a o ha
  obtain ⟨t, rfl⟩ := h
  have ha' : H0[a]? = some o := ha
  show (H0 ++ t)[a]? = some o
  rw [List.getElem?_append_left (get_lt ha')]
  exact ha'

theorem allSome_mono {α β : Type} {f g : α → Option β} (h : ∀ x y, f x = some y → g x = some y) :
    ∀ {xs : List α} {ys : List β}, allSome f xs = some ys → allSome g xs = some ys
  | [], ys, e => e
  | x :: xs, ys, e => by
    rw [allSome] at e ⊢
    split at e
    · next y ys' h1 h2 => rw [h x y h1, allSome_mono h h2]; exact e
    · cases e

theorem entriesSome_mono {α β : Type} {f g : α → Option β} (h : ∀ x y, f x = some y → g x = some y) :
    ∀ {xs : List (JStr × α)} {ys : List (JStr × β)}, entriesSome f xs = some ys → entriesSome g xs = some ys
  | [], ys, e => e
  | (k, x) :: xs, ys, e => by
    rw [entriesSome] at e ⊢
    split at e
    · next y ys' h1 h2 => rw [h x y h1, entriesSome_mono h h2]; exact e
    · cases e

theorem see_imm (k : Nat) (H : Mem) (v : Value) : see k H (.imm v) = some v := by cases k <;> rfl

/-- What a reference to an object shows. -/
inductive SeesObj (k : Nat) (H : Mem) : Obj → Value → Prop
  | list {xs vs} : allSome (see k H) xs = some vs → SeesObj k H (.list xs) (.list vs)
  | coll {xs vs} : allSome (see k H) xs = some vs → SeesObj k H (.coll xs) (.coll vs)
  | arr {t xs vs} : allSome (see k H) xs = some vs → SeesObj k H (.arr t xs) (.arr t vs)
  | map {es fs} : entriesSome (see k H) es = some fs → SeesObj k H (.map es) (.map fs)

theorem see_ptr {k : Nat} {H : Mem} {a : Addr} {v : Value} (h : see k H (.ptr a) = some v) :
    ∃ j o, k = j + 1 ∧ H a = some o ∧ SeesObj j H o v := by
  cases k with
  | zero => simp [see] at h
  | succ j =>
    rw [see] at h
    split at h
    · next xs e =>
      obtain ⟨vs, h1, rfl⟩ := Option.map_eq_some_iff.1 h
      exact ⟨j, _, rfl, e, .list h1⟩
    · next xs e =>
      obtain ⟨vs, h1, rfl⟩ := Option.map_eq_some_iff.1 h
      exact ⟨j, _, rfl, e, .coll h1⟩
    · next t xs e =>
      obtain ⟨vs, h1, rfl⟩ := Option.map_eq_some_iff.1 h
      exact ⟨j, _, rfl, e, .arr h1⟩
    · next es e =>
      obtain ⟨vs, h1, rfl⟩ := Option.map_eq_some_iff.1 h
      exact ⟨j, _, rfl, e, .map h1⟩
    · cases h

theorem see_of_obj {k : Nat} {H : Mem} {a : Addr} {o : Obj} {v : Value} (ha : H a = some o)
    (h : SeesObj k H o v) : see (k + 1) H (.ptr a) = some v := by
  rw [see, ha]
  cases h with
  | list h => simp [h]
  | coll h => simp [h]
  | arr h => simp [h]
  | map h => simp [h]

theorem SeesObj.imp {k j : Nat} {H G : Mem} (h : ∀ r v, see k H r = some v → see j G r = some v) {o : Obj} {v : Value}
    (hs : SeesObj k H o v) : SeesObj j G o v := by
  cases hs with
  | list e => exact .list (allSome_mono h e)
  | coll e => exact .coll (allSome_mono h e)
  | arr e => exact .arr (allSome_mono h e)
  | map e => exact .map (entriesSome_mono h e)

/-- A deeper look sees the same. -/
theorem see_succ : ∀ (k : Nat) {H : Mem} {r : Ref} {v : Value}, see k H r = some v → see (k + 1) H r = some v
  | k, H, .imm w, v, h => by rw [see_imm] at h ⊢; exact h
  | k, H, .ptr a, v, h => by
    obtain ⟨j, o, rfl, ha, hs⟩ := see_ptr h
    exact see_of_obj ha (hs.imp (fun r v h => see_succ j h))

theorem see_le {j k : Nat} (hjk : j ≤ k) {H : Mem} {r : Ref} {v : Value} (h : see j H r = some v) :
    see k H r = some v := by
  induction hjk with
  | refl => exact h
  | step _ ih => exact see_succ _ ih

/-- More objects do not change what is seen. -/
theorem see_mono {H0 H : Mem} (hp : H0.Le H) : ∀ (k : Nat) {r : Ref} {v : Value}, see k H0 r = some v →
    see k H r = some v
  | k, .imm w, v, h => by rw [see_imm] at h ⊢; exact h
  | k, .ptr a, v, h => by
    obtain ⟨j, o, rfl, ha, hs⟩ := see_ptr h
    exact see_of_obj (hp _ _ ha) (hs.imp (fun r v h => see_mono hp j h))

/-- What a node object shows. -/
inductive View (m k : Nat) (H : Mem) : NodeObj → Node → Prop
  | cmp {l r op dt x y} : seeTree m k H l = some x → seeTree m k H r = some y →
      View m k H (.cmp l r op dt) (.cmp x y op dt)
  | range {f lo hi loT hiT x y} : see m H lo = some x → see m H hi = some y →
      View m k H (.range f lo hi loT hiT) (.range f x y loT hiT)
  | inn {f items ns xs} : H items = some (.nodes ns) → allSome (seeTree m k H) ns = some xs →
      View m k H (.inn f items) (.inn f xs)
  | array {f op items ns xs} : H items = some (.nodes ns) → allSome (seeTree m k H) ns = some xs →
      View m k H (.array f op items) (.array f op xs)
  | unary {dt r v} : see m H r = some v → View m k H (.unary dt r) (.unary dt v)
  | and_ {l r x y} : seeTree m k H l = some x → seeTree m k H r = some y →
      View m k H (.bool .and l r) (.and_ x y)
  | or_ {l r x y} : seeTree m k H l = some x → seeTree m k H r = some y →
      View m k H (.bool .or l r) (.or_ x y)
  | not_ {l r x} : seeTree m k H l = some x → View m k H (.bool .not l r) (.not_ x)
  | field {f} : View m k H (.field f) (.field f)
  | arith {op l r x y} : seeTree m k H l = some x → seeTree m k H r = some y →
      View m k H (.arith (some op) l r) (.arith op x y)
  | neg {l r x} : seeTree m k H l = some x → View m k H (.arith none l r) (.neg x)
  | func {f items ns xs} : H items = some (.nodes ns) → allSome (seeTree m k H) ns = some xs →
      View m k H (.func f items) (.func f xs)

theorem seeTree_inv {m k : Nat} {H : Mem} {a : Option Addr} {n : Node} (h : seeTree m k H a = some n) :
    ∃ j b o, k = j + 1 ∧ a = some b ∧ H b = some (.node o) ∧ View m j H o n := by
  cases k with
  | zero => simp [seeTree] at h
  | succ j =>
    cases a with
    | none => simp [seeTree] at h
    | some b =>
      refine ⟨j, b, ?_⟩
      rw [seeTree] at h
      split at h
      · next l r op dt e =>
        obtain ⟨x, hx, h⟩ := Option.bind_eq_some_iff.1 h
        obtain ⟨y, hy, h⟩ := Option.bind_eq_some_iff.1 h
        cases h; exact ⟨_, rfl, rfl, e, .cmp hx hy⟩
      · next f lo hi loT hiT e =>
        obtain ⟨x, hx, h⟩ := Option.bind_eq_some_iff.1 h
        obtain ⟨y, hy, h⟩ := Option.bind_eq_some_iff.1 h
        cases h; exact ⟨_, rfl, rfl, e, .range hx hy⟩
      · next f items e =>
        split at h
        · next xs e2 =>
          obtain ⟨x, hx, h⟩ := Option.map_eq_some_iff.1 h
          cases h; exact ⟨_, rfl, rfl, e, .inn e2 hx⟩
        · cases h
      · next f op items e =>
        split at h
        · next xs e2 =>
          obtain ⟨x, hx, h⟩ := Option.map_eq_some_iff.1 h
          cases h; exact ⟨_, rfl, rfl, e, .array e2 hx⟩
        · cases h
      · next dt v e =>
        obtain ⟨x, hx, h⟩ := Option.map_eq_some_iff.1 h
        cases h; exact ⟨_, rfl, rfl, e, .unary hx⟩
      · next l r e =>
        obtain ⟨x, hx, h⟩ := Option.bind_eq_some_iff.1 h
        obtain ⟨y, hy, h⟩ := Option.bind_eq_some_iff.1 h
        cases h; exact ⟨_, rfl, rfl, e, .and_ hx hy⟩
      · next l r e =>
        obtain ⟨x, hx, h⟩ := Option.bind_eq_some_iff.1 h
        obtain ⟨y, hy, h⟩ := Option.bind_eq_some_iff.1 h
        cases h; exact ⟨_, rfl, rfl, e, .or_ hx hy⟩
      · next l r e =>
        obtain ⟨x, hx, h⟩ := Option.map_eq_some_iff.1 h
        cases h; exact ⟨_, rfl, rfl, e, .not_ hx⟩
      · next f e => cases h; exact ⟨_, rfl, rfl, e, .field⟩
      · next op l r e =>
        obtain ⟨x, hx, h⟩ := Option.bind_eq_some_iff.1 h
        obtain ⟨y, hy, h⟩ := Option.bind_eq_some_iff.1 h
        cases h; exact ⟨_, rfl, rfl, e, .arith hx hy⟩
      · next l r e =>
        obtain ⟨x, hx, h⟩ := Option.map_eq_some_iff.1 h
        cases h; exact ⟨_, rfl, rfl, e, .neg hx⟩
      · next f items e =>
        split at h
        · next xs e2 =>
          obtain ⟨x, hx, h⟩ := Option.map_eq_some_iff.1 h
          cases h; exact ⟨_, rfl, rfl, e, .func e2 hx⟩
        · cases h
      · cases h

theorem allSome_forall {α β : Type} {f : α → Option β} : ∀ {xs : List α} {ys : List β}, allSome f xs = some ys →
    List.Forall₂ (fun x y => f x = some y) xs ys
  | [], ys, h => by cases h; exact .nil
  | x :: xs, ys, h => by
    rw [allSome] at h
    split at h
    · next y ys' h1 h2 => cases h; exact .cons h1 (allSome_forall h2)
    · cases h

/-! ### Outcomes -/

section
variable {α β γ δ : Type} {H0 : Mem}

theorem HM_bind (f : α → HM β) : ∀ (x : HM α) (H : Heap), (x >>= f) H =
    match x H with
    | (.ok a, H') => f a H'
    | (.thrown e, H') => (.thrown e, H')
    | (.stuck, H') => (.stuck, H')
  | .done (.ok _), _ => rfl
  | .done (.thrown _), _ => rfl
  | .done .stuck, _ => rfl
  | .readThen a k, H => by
    show (HM.readThen a (fun o => k o >>= f)) H = match (HM.readThen a k) H with
      | (.ok a, H') => f a H' | (.thrown e, H') => (.thrown e, H') | (.stuck, H') => (.stuck, H')
    rw [HM.run, HM.run]
    cases H[a]? with
    | none => rfl
    | some o => exact HM_bind f (k o) H
  | .writeThen a o k, H => HM_bind f k (H.set a o)
  | .allocThen o k, H => HM_bind f (k H.length) (H ++ [o])

theorem HM_bind_ok {x : HM α} {f : α → HM β} {H H' : Heap} {a : α} (h : x H = (.ok a, H')) : (x >>= f) H = f a H' := by
  rw [HM_bind, h]

theorem HM_assoc (f : α → HM β) (g : β → HM γ) : ∀ x : HM α, (x >>= f) >>= g = x >>= fun a => f a >>= g
  | .done (.ok _) => rfl
  | .done (.thrown _) => rfl
  | .done .stuck => rfl
  | .readThen a k => congrArg (HM.readThen a) (funext fun o => HM_assoc f g (k o))
  | .writeThen a o k => congrArg (HM.writeThen a o) (HM_assoc f g k)
  | .allocThen o k => congrArg (HM.allocThen o) (funext fun a => HM_assoc f g (k a))

theorem alloc_bind {o : Obj} {f : Addr → HM β} {H : Heap} : (HM.alloc o >>= f) H = f H.length (H ++ [o]) := rfl

theorem read_bind {a : Addr} {o : Obj} {f : Obj → HM β} {H : Heap} (h : H[a]? = some o) :
    (HM.read a >>= f) H = f o H := HM_bind_ok (by rw [HM.read, HM.run, h]; rfl)

/-- A new object, or a new content of one. -/
def Mem.put (O : Mem) (a : Addr) (o : Obj) : Mem := fun b => if b = a then some o else O b

theorem Mem.put_self {O : Mem} {a : Addr} {o : Obj} : O.put a o a = some o := by simp [Mem.put]

theorem Mem.put_ne {O : Mem} {a b : Addr} {o : Obj} (h : b ≠ a) : O.put a o b = O b := by simp [Mem.put, h]

theorem Mem.put_put {O : Mem} {a : Addr} {o p : Obj} : (O.put a o).put a p = O.put a p := by
  funext b
  by_cases h : b = a <;> simp [Mem.put, h]

theorem Mem.le_put {O : Mem} {a : Addr} {o : Obj} (h : O a = none) : O.Le (O.put a o) := by
  intro b p hb
  rw [Mem.put_ne]
  · exact hb
  · intro e
    rw [e, h] at hb
    cases hb

/-- With `K` the objects it may rely on and `O` those it has created: whatever addresses other than these its
next objects get, the method reads only objects of the two, writes only to its own, and ends in a way that
satisfies `Q`. -/
def Wp (K : Mem) : HM α → Mem → (Out α → Mem → Prop) → Prop
  | .done o, O, Q => Q o O
  | .readThen a k, O, Q => ∃ o, (K a = some o ∨ O a = some o) ∧ Wp K (k o) O Q
  | .writeThen a o k, O, Q => (O a).isSome ∧ Wp K k (O.put a o) Q
  | .allocThen o k, O, Q => ∀ a, K a = none → O a = none → Wp K (k a) (O.put a o) Q

theorem Wp.mono {Q Q' : Out α → Mem → Prop} (hq : ∀ o O, Q o O → Q' o O) :
    ∀ {x : HM α} {O : Mem}, Wp H0 x O Q → Wp H0 x O Q'
  | .done _, _, h => hq _ _ h
  | .readThen _ _, _, ⟨o, h1, h2⟩ => ⟨o, h1, Wp.mono hq h2⟩
  | .writeThen _ _ _, _, ⟨h1, h2⟩ => ⟨h1, Wp.mono hq h2⟩
  | .allocThen _ _, _, h => fun a h1 h2 => Wp.mono hq (h a h1 h2)

theorem Wp.bind {f : α → HM β} {Q : Out β → Mem → Prop} : ∀ {x : HM α} {O : Mem},
    Wp H0 x O (fun out O' => match out with
      | .ok a => Wp H0 (f a) O' Q
      | .thrown e => Q (.thrown e) O'
      | .stuck => Q .stuck O') → Wp H0 (x >>= f) O Q
  | .done (.ok _), _, h => h
  | .done (.thrown _), _, h => h
  | .done .stuck, _, h => h
  | .readThen _ k, _, ⟨o, h1, h2⟩ => ⟨o, h1, Wp.bind (x := k o) h2⟩
  | .writeThen _ _ k, _, ⟨h1, h2⟩ => ⟨h1, Wp.bind (x := k) h2⟩
  | .allocThen _ k, _, h => fun a h1 h2 => Wp.bind (x := k a) (h a h1 h2)

theorem Wp.bind_ok {x : HM α} {f : α → HM β} {Q : Out β → Mem → Prop} {O : Mem}
    (h : Wp H0 x O (fun out O' => ∃ a, out = .ok a ∧ Wp H0 (f a) O' Q)) : Wp H0 (x >>= f) O Q := by
  refine Wp.bind (h.mono ?_)
  rintro o O' ⟨a, rfl, h⟩
  exact h

theorem Wp.read {a : Addr} {o : Obj} {O : Mem} {f : Obj → HM β} {Q : Out β → Mem → Prop}
    (ha : H0 a = some o ∨ O a = some o) (h : Wp H0 (f o) O Q) : Wp H0 (HM.read a >>= f) O Q :=
  ⟨o, ha, h⟩

theorem Wp.write {a : Addr} {o p : Obj} {O : Mem} {f : Unit → HM β} {Q : Out β → Mem → Prop}
    (ha : O a = some p) (h : Wp H0 (f ()) (O.put a o) Q) : Wp H0 (HM.write a o >>= f) O Q :=
  ⟨by rw [ha]; rfl, h⟩

theorem Wp.alloc {o : Obj} {O : Mem} {f : Addr → HM β} {Q : Out β → Mem → Prop}
    (h : ∀ a, H0 a = none → O a = none → Wp H0 (f a) (O.put a o) Q) : Wp H0 (HM.alloc o >>= f) O Q := h

/-- Looking at a value. -/
theorem deep_wp {O : Mem} : ∀ {m : Nat} {r : Ref} {v : Value} {Q : Out Value → Mem → Prop}, see m H0 r = some v →
    Q (.ok v) O → Wp H0 (deep m r) O Q
  | m, .imm w, v, Q, h, hq => by
    rw [see_imm] at h
    cases h
    cases m <;> exact hq
  | m, .ptr a, v, Q, h, hq => by
    obtain ⟨j, o, rfl, ha, hs⟩ := see_ptr h
    have hall : ∀ {xs : List Ref} {vs : List Value} {Q' : Out (List Value) → Mem → Prop},
        allSome (see j H0) xs = some vs → Q' (.ok vs) O → Wp H0 (each (deep j) xs) O Q' := by
      intro xs
      induction xs with
      | nil => intro vs Q' e hq; cases e; exact hq
      | cons x xs ih =>
        intro vs Q' e hq
        rw [allSome] at e
        split at e
        · next y ys h1 h2 =>
          cases e
          exact Wp.bind (deep_wp h1 (Wp.bind (ih h2 hq)))
        · cases e
    have hent : ∀ {xs : List (JStr × Ref)} {vs : Data} {Q' : Out Data → Mem → Prop},
        entriesSome (see j H0) xs = some vs → Q' (.ok vs) O → Wp H0 (eachEntry (deep j) xs) O Q' := by
      intro xs
      induction xs with
      | nil => intro vs Q' e hq; cases e; exact hq
      | cons x xs ih =>
        intro vs Q' e hq
        rw [entriesSome] at e
        split at e
        · next y ys h1 h2 =>
          cases e
          exact Wp.bind (deep_wp h1 (Wp.bind (ih h2 hq)))
        · cases e
    rw [deep]
    cases hs with
    | list e => exact Wp.read (.inl ha) (Wp.bind (hall e hq))
    | coll e => exact Wp.read (.inl ha) (Wp.bind (hall e hq))
    | arr e => exact Wp.read (.inl ha) (Wp.bind (hall e hq))
    | map e => exact Wp.read (.inl ha) (Wp.bind (hent e hq))

theorem Wp.deep {O : Mem} {m : Nat} {r : Ref} {v : Value} {f : Value → HM β} {Q : Out β → Mem → Prop}
    (hr : see m H0 r = some v) (h : Wp H0 (f v) O Q) : Wp H0 (BoolParser.deep m r >>= f) O Q :=
  Wp.bind (deep_wp hr h)

/-- A method that ends like `r`. -/
def EndsLike (r : Result β) (R : α → β → Prop) (out : Out α) : Prop :=
  match r with
  | .ok b => ∃ a, out = .ok a ∧ R a b
  | .error e => out = .thrown e

/-- Starting with the objects `O` of its own, `x` ends like `r`, and does not change those objects. -/
def GivesAt (H0 : Mem) (x : HM α) (r : Result β) (R : α → β → Prop) (O : Mem) : Prop :=
  Wp H0 x O (fun out O' => O.Le O' ∧ EndsLike r R out)

/-- The same whatever objects of its own there are. -/
def Gives (H0 : Mem) (x : HM α) (r : Result β) (R : α → β → Prop) : Prop := ∀ O, GivesAt H0 x r R O

theorem GivesAt.le {x : HM α} {r : Result β} {R : α → β → Prop} {O O' : Mem} (hle : O.Le O')
    (h : GivesAt H0 x r R O') : Wp H0 x O' (fun out O'' => O.Le O'' ∧ EndsLike r R out) :=
  Wp.mono (fun _ _ h => ⟨hle.trans h.1, h.2⟩) h

/-- What comes after `x`. -/
theorem GivesAt.then {x : HM α} {f : α → HM β} {r : Result γ} {R : α → γ → Prop} {Q : Out β → Mem → Prop}
    {O : Mem} (hx : GivesAt H0 x r R O)
    (hok : ∀ b, r = .ok b → ∀ a O', R a b → O.Le O' → Wp H0 (f a) O' Q)
    (herr : ∀ e, r = .error e → ∀ O', O.Le O' → Q (.thrown e) O') : Wp H0 (x >>= f) O Q := by
  refine Wp.bind (Wp.mono ?_ hx)
  rintro out O' ⟨hle, h⟩
  cases r with
  | ok b =>
    obtain ⟨a, rfl, hab⟩ := h
    exact hok b rfl a O' hab hle
  | error e =>
    rw [show out = .thrown e from h]
    exact herr e rfl O' hle

theorem GivesAt.bind {x : HM α} {f : α → HM β} {r : Result γ} {g : γ → Result δ} {R : α → γ → Prop}
    {S : β → δ → Prop} {O : Mem} (hx : GivesAt H0 x r R O)
    (hf : ∀ a b O', R a b → O.Le O' → GivesAt H0 (f a) (g b) S O') : GivesAt H0 (x >>= f) (r >>= g) S O := by
  refine hx.then ?_ ?_
  · rintro b rfl a O' hab hle
    exact GivesAt.le hle (hf a b O' hab hle)
  · rintro e rfl O' hle
    exact ⟨hle, rfl⟩

theorem Gives.bind {x : HM α} {f : α → HM β} {r : Result γ} {g : γ → Result δ} {R : α → γ → Prop}
    {S : β → δ → Prop} (hx : Gives H0 x r R) (hf : ∀ a b, R a b → Gives H0 (f a) (g b) S) :
    Gives H0 (x >>= f) (r >>= g) S :=
  fun O => (hx O).bind (fun a b O' hab _ => hf a b hab O')

theorem Gives.pure {a : α} {b : β} {R : α → β → Prop} (h : R a b) : Gives H0 (pure a : HM α) (.ok b) R :=
  fun _ => ⟨Mem.Le.refl, a, rfl, h⟩

theorem Gives.raise {e : Exn} {R : α → β → Prop} : Gives H0 (raise e : HM α) (.error e) R :=
  fun _ => ⟨Mem.Le.refl, rfl⟩

theorem Gives.lift {r : Result α} : Gives H0 (HM.lift r) r Eq := by
  intro O
  cases r with
  | ok a => exact ⟨Mem.Le.refl, a, rfl, rfl⟩
  | error e => exact ⟨Mem.Le.refl, rfl⟩

theorem Gives.lift_then {r : Result α} {f : α → HM β} {R : β → α → Prop} (h : ∀ a, Gives H0 (f a) (.ok a) R) :
    Gives H0 (HM.lift r >>= f) r R := by
  intro O
  cases r with
  | ok a => exact h a O
  | error e => exact ⟨Mem.Le.refl, rfl⟩

theorem Gives.read {a : Addr} {o : Obj} (ha : H0 a = some o) {f : Obj → HM β} {r : Result γ}
    {R : β → γ → Prop} (h : Gives H0 (f o) r R) : Gives H0 (HM.read a >>= f) r R :=
  fun O => Wp.read (.inl ha) (h O)

theorem Gives.node {a : Addr} {o : NodeObj} (ha : H0 a = some (.node o)) {f : NodeObj → HM β} {r : Result γ}
    {R : β → γ → Prop} (h : Gives H0 (f o) r R) : Gives H0 (readNode a >>= f) r R := by
  rw [readNode, HM_assoc]
  exact Gives.read ha h

theorem Gives.deep {m : Nat} {r : Ref} {v : Value} (hr : see m H0 r = some v) {f : Value → HM β} {s : Result γ}
    {R : β → γ → Prop} (h : Gives H0 (f v) s R) : Gives H0 (deep m r >>= f) s R :=
  fun O => Wp.deep hr (h O)

end

/-! ### Nobody else interfering -/

/-- The heap has the objects `K` and `O`, which are different ones. -/
structure Accords (K O : Mem) (H : Heap) : Prop where
  old : K.Le H.mem
  own : O.Le H.mem
  apart : ∀ a, K a = none ∨ O a = none

theorem Accords.read {K O : Mem} {H : Heap} (h : Accords K O H) {a : Addr} {o : Obj}
    (ha : K a = some o ∨ O a = some o) : H[a]? = some o := ha.elim (h.old a o) (h.own a o)

theorem Accords.write {K O : Mem} {H : Heap} (h : Accords K O H) {a : Addr} (ha : (O a).isSome) (o : Obj) :
    Accords K (O.put a o) (H.set a o) := by
  obtain ⟨p, hp⟩ := Option.isSome_iff_exists.1 ha
  have hK : K a = none := by
    rcases h.apart a with e | e
    · exact e
    · rw [e] at hp; cases hp
  refine ⟨fun b q hb => ?_, fun b q hb => ?_, fun b => ?_⟩
  · have hne : a ≠ b := by
      rintro rfl
      rw [hK] at hb
      cases hb
    show (H.set a o)[b]? = some q
    rw [List.getElem?_set_ne hne]
    exact h.old b q hb
  · show (H.set a o)[b]? = some q
    by_cases hba : b = a
    · subst hba
      rw [Mem.put_self] at hb
      rw [List.getElem?_set_self (get_lt (h.own b p hp))]
      exact hb
    · rw [Mem.put_ne hba] at hb
      rw [List.getElem?_set_ne (Ne.symm hba)]
      exact h.own b q hb
  · by_cases hba : b = a
    · subst hba; exact .inl hK
    · rw [Mem.put_ne hba]
      exact h.apart b

theorem Mem.fresh {O : Mem} {H : Heap} (h : O.Le H.mem) : O H.length = none := by
  cases hx : O H.length with
  | none => rfl
  | some p => exact absurd (get_lt (h _ p hx)) (Nat.lt_irrefl _)

theorem Mem.grow {O : Mem} {H : Heap} (h : O.Le H.mem) (o : Obj) : O.Le (Heap.mem (H ++ [o])) :=
  h.trans (mem_prefix (List.prefix_append _ _))

theorem Accords.alloc {K O : Mem} {H : Heap} (h : Accords K O H) (o : Obj) :
    Accords K (O.put H.length o) (H ++ [o]) := by
  refine ⟨Mem.grow h.old o, fun b q hb => ?_, fun b => ?_⟩
  · by_cases hba : b = H.length
    · subst hba
      rw [Mem.put_self] at hb
      show (H ++ [o])[H.length]? = some q
      simpa using hb
    · rw [Mem.put_ne hba] at hb
      exact Mem.grow h.own o b q hb
  · by_cases hba : b = H.length
    · subst hba; exact .inl (Mem.fresh h.old)
    · rw [Mem.put_ne hba]
      exact h.apart b

theorem Wp.runs {α : Type} {K : Mem} {Q : Out α → Mem → Prop} : ∀ {x : HM α} {O : Mem} {H : Heap},
    Wp K x O Q → Accords K O H → ∃ O', Accords K O' (x H).2 ∧ Q (x H).1 O'
  | .done _, O, H, h, ha => ⟨O, ha, h⟩
  | .readThen a k, O, H, ⟨o, h1, h2⟩, ha => by
    rw [HM.run, ha.read h1]
    exact h2.runs ha
  | .writeThen a o k, O, H, ⟨h1, h2⟩, ha => h2.runs (ha.write h1 o)
  | .allocThen o k, O, H, h, ha => (h H.length (Mem.fresh ha.old) (Mem.fresh ha.own)).runs (ha.alloc o)

theorem Gives.runs {α β : Type} {K : Mem} {x : HM α} {r : Result β} {R : α → β → Prop} (h : Gives K x r R)
    {H : Heap} (hp : K.Le H.mem) : EndsLike r R (x H).1 := by
  have ha : Accords K (fun _ => none) H := ⟨hp, fun _ _ e => by simp at e, fun _ => .inr rfl⟩
  obtain ⟨O', _, h2⟩ := Wp.runs (h (fun _ => none)) ha
  exact h2.2

/-! ### Looking fields up -/

/-- Both absent, or a reference and the value seen at it. -/
def OptSees (m : Nat) (H : Mem) : Option Ref → Option Value → Prop
  | none, none => True
  | some r, some v => see m H r = some v
  | _, _ => False

theorem refGet_sees {k : Nat} {H : Mem} : ∀ {es : List (JStr × Ref)} {fs : Data},
    entriesSome (see k H) es = some fs → ∀ key, OptSees k H (refGet es key) (mapGet fs key)
  | [], fs, h, key => by cases h; trivial
  | (k', r) :: es, fs, h, key => by
    rw [entriesSome] at h
    split at h
    · next y ys h1 h2 =>
      cases h
      rw [refGet, mapGet]
      split
      · exact h1
      · exact refGet_sees h2 key
    · cases h

theorem OptSees.le {j k : Nat} (hjk : j ≤ k) {H : Mem} {o : Option Ref} {p : Option Value} (h : OptSees j H o p) :
    OptSees k H o p := by
  cases o <;> cases p
  · trivial
  · exact h
  · exact h
  · exact see_le hjk h

theorem walkH_gives {m : Nat} {H0 : Mem} : ∀ (ks : List JStr) {a : Addr} {es : Data} {j : Nat}, j ≤ m →
    see j H0 (.ptr a) = some (.map es) → Gives H0 (walkH ks a) (walkKeys ks es) (OptSees m H0)
  | [], _, _, _, _, _ => Gives.raise
  | [k], a, es, j, hj, h => by
    obtain ⟨i, o, rfl, ha, hs⟩ := see_ptr h
    cases hs with
    | map hs =>
      have hg := refGet_sees hs k
      rw [walkH]
      refine Gives.read ha ?_
      dsimp only
      rw [walkKeys]
      revert hg
      cases refGet _ k with
      | none =>
        cases mapGet es k with
        | none => exact fun _ => Gives.pure trivial
        | some v => exact fun h => h.elim
      | some r =>
        cases hm : mapGet es k with
        | none => exact fun h => h.elim
        | some v =>
          intro hg
          have hg' : see i H0 r = some v := hg
          cases r with
          | imm w =>
            rw [see_imm] at hg'
            cases hg'
            cases v <;> first
              | exact Gives.pure trivial
              | exact Gives.pure (see_imm _ _ _)
          | ptr b =>
            obtain ⟨i', o, rfl, hb, hs⟩ := see_ptr hg'
            have := see_le (Nat.le_trans (Nat.le_succ _) hj) hg'
            cases hs <;> exact Gives.pure this
    
  | k :: k2 :: ks, a, es, j, hj, h => by
    obtain ⟨i, o, rfl, ha, hs⟩ := see_ptr h
    cases hs with
    | map hs =>
      have hg := refGet_sees hs k
      rw [walkH]
      refine Gives.read ha ?_
      dsimp only
      rw [walkKeys]
      revert hg
      cases refGet _ k with
      | none =>
        cases mapGet es k with
        | none => exact fun _ => Gives.pure trivial
        | some v => exact fun h => h.elim
      | some r =>
        cases hm : mapGet es k with
        | none => exact fun h => h.elim
        | some v =>
          intro hg
          have hg' : see i H0 r = some v := hg
          cases r with
          | imm w =>
            rw [see_imm] at hg'
            cases hg'
            cases v with
            | map fs =>
              dsimp only
              refine Gives.lift_then (fun o => Gives.pure ?_)
              cases o with
              | none => trivial
              | some v => exact see_imm _ _ _
            | _ => exact Gives.pure trivial
          | ptr b =>
            obtain ⟨i', o, rfl, hb, hs⟩ := see_ptr hg'
            cases hs with
            | map hs => exact Gives.read hb (walkH_gives (k2 :: ks) (Nat.le_trans (Nat.le_succ _) hj) hg')
            | _ => exact Gives.read hb (Gives.pure trivial)

section
variable {m : Nat} {H0 : Mem} {d : Addr} {data : Data} (hd : see m H0 (.ptr d) = some (.map data))
include hd

theorem lookupFieldH_gives (f : Option JStr) : Gives H0 (lookupFieldH d f) (lookupField f data) (OptSees m H0) := by
  cases f with
  | none => exact Gives.raise
  | some k => exact walkH_gives _ (Nat.le_refl _) hd

theorem requireFieldH_gives (f : Option JStr) :
    Gives H0 (requireFieldH d f) (requireField f data) (fun r v => see m H0 r = some v) := by
  refine Gives.bind (lookupFieldH_gives hd f) (fun o p h => ?_)
  cases o <;> cases p
  · exact Gives.raise
  · exact h.elim
  · exact h.elim
  · exact Gives.pure h

end

theorem optOfH_gives {m : Nat} {H0 : Mem} {r : Ref} {v : Value} (h : see m H0 r = some v) :
    Gives H0 (optOfH r) (optOf v) (OptSees m H0) := by
  cases r with
  | imm w =>
    rw [see_imm] at h
    cases h
    cases v <;> first
      | exact Gives.raise
      | exact Gives.pure (see_imm _ _ _)
  | ptr b =>
    obtain ⟨i, o, rfl, hb, hs⟩ := see_ptr h
    cases hs <;> exact Gives.pure h

/-! ### The lists evaluation makes -/

/-- The list object `out` holds `EvaluatedNode`s of the values and types `xs`. -/
def Flat (m : Nat) (H0 : Mem) (out : Addr) (xs : List Typed) (O : Mem) : Prop :=
  ∃ es, O out = some (.evalds es) ∧
    List.Forall₂ (fun e (x : Typed) => ∃ r, O e = some (.evald x.2 r) ∧ see m H0 r = some x.1) es xs

/-- Nothing but the object `out` has changed, and perhaps there are new ones. -/
def Mem.LeBut (out : Addr) (O O' : Mem) : Prop := ∀ a o, a ≠ out → O a = some o → O' a = some o

theorem Mem.LeBut.trans {out : Addr} {O O' O'' : Mem} (h : O.LeBut out O') (h' : O'.LeBut out O'') : O.LeBut out O'' :=
  fun a o ha e => h' a o ha (h a o ha e)

theorem Mem.LeBut.refl {out : Addr} {O : Mem} : O.LeBut out O := fun _ _ _ h => h

theorem Mem.LeBut.of_put {out : Addr} {O O' : Mem} {o : Obj} (hn : O out = none) (h : (O.put out o).LeBut out O') : O.Le O' := by
  intro a p hp
  have hne : a ≠ out := by intro e; rw [e, hn] at hp; cases hp
  exact h a p hne (by rw [Mem.put_ne hne]; exact hp)

theorem addFlat_wp {m : Nat} {H0 : Mem} {O : Mem} {out : Addr} {xs : List Typed} {r : Ref} {v : Value}
    (hf : Flat m H0 out xs O) (hr : see m H0 r = some v) {Q : Out Unit → Mem → Prop}
    (hq : ∀ O', O.LeBut out O' → Flat m H0 out (xs ++ [(v, getDataType v)]) O' → Q (.ok ()) O') :
    Wp H0 (addFlat m out r) O Q := by
  obtain ⟨es, hes, hall⟩ := hf
  rw [addFlat]
  refine Wp.deep hr (Wp.alloc (fun e _ hfree => ?_))
  have hne : out ≠ e := by intro h; rw [h, hfree] at hes; cases hes
  rw [addEvald]
  refine Wp.read (o := .evalds es) (.inr (by rw [Mem.put_ne hne]; exact hes)) ?_
  refine ⟨by rw [Mem.put_ne hne, hes]; rfl, hq _ ?_ ⟨es ++ [e], Mem.put_self, ?_⟩⟩
  · intro a o ha hao
    rw [Mem.put_ne ha]
    exact Mem.le_put hfree a o hao
  · have keep : ∀ {a o}, a ≠ out → O a = some o → ((O.put e (.evald (getDataType v) r)).put out
        (.evalds (es ++ [e]))) a = some o := by
      intro a o ha hao
      rw [Mem.put_ne ha]
      exact Mem.le_put hfree a o hao
    refine List.rel_append (hall.imp ?_) (.cons ⟨r, ?_, hr⟩ .nil)
    · rintro a x ⟨s, h1, h2⟩
      refine ⟨s, keep ?_ h1, h2⟩
      intro h
      rw [h, hes] at h1
      cases h1
    · rw [Mem.put_ne (Ne.symm hne), Mem.put_self]

theorem addFlats_wp {m : Nat} {H0 : Mem} {out : Addr} {Q : Out Unit → Mem → Prop} : ∀ {rs : List Ref} {vs : List Value},
    List.Forall₂ (fun r v => see m H0 r = some v) rs vs → ∀ {xs : List Typed} {O : Mem}, Flat m H0 out xs O →
    (∀ O', O.LeBut out O' → Flat m H0 out (xs ++ vs.map (fun x => (x, getDataType x))) O' → Q (.ok ()) O') →
    Wp H0 (forEach (addFlat m out) rs) O Q
  | _, _, .nil, xs, O, hf, hq => hq O Mem.LeBut.refl (by simpa using hf)
  | _, _, .cons h1 hs, xs, O, hf, hq => by
    rw [forEach]
    refine Wp.bind (addFlat_wp hf h1 (fun O1 l1 f1 => ?_))
    refine addFlats_wp hs f1 (fun O2 l2 f2 => hq O2 (l1.trans l2) (by simpa using f2))

theorem elementsH_wp {m : Nat} {H0 : Mem} {O : Mem} {r : Ref} {v : Value} (h : see m H0 r = some v)
    {Q : Out (Option (List Ref)) → Mem → Prop}
    (hq : ∀ o, (match o with
      | some rs => ∃ vs, (v = .list vs ∨ v = .coll vs) ∧ List.Forall₂ (fun r v => see m H0 r = some v) rs vs
      | none => ∀ vs, v ≠ .list vs ∧ v ≠ .coll vs) → Q (.ok o) O) : Wp H0 (elementsH r) O Q := by
  have himm : ∀ vs : List Value, List.Forall₂ (fun r v => see m H0 r = some v) (vs.map Ref.imm) vs := by
    intro vs
    induction vs with
    | nil => exact .nil
    | cons v vs ih => exact .cons (see_imm _ _ _) ih
  cases r with
  | imm w =>
    rw [see_imm] at h
    cases h
    cases v <;> first
      | exact hq (some _) ⟨_, .inl rfl, himm _⟩
      | exact hq (some _) ⟨_, .inr rfl, himm _⟩
      | exact hq none (fun vs => ⟨by simp, by simp⟩)
  | ptr a =>
    obtain ⟨j, o, rfl, ha, hs⟩ := see_ptr h
    rw [elementsH]
    cases hs with
    | list e =>
      exact Wp.read (.inl ha) (hq (some _) ⟨_, .inl rfl, (allSome_forall e).imp (fun _ _ h => see_succ _ h)⟩)
    | coll e =>
      exact Wp.read (.inl ha) (hq (some _) ⟨_, .inr rfl, (allSome_forall e).imp (fun _ _ h => see_succ _ h)⟩)
    | arr e => exact Wp.read (.inl ha) (hq none (fun vs => ⟨by simp, by simp⟩))
    | map e => exact Wp.read (.inl ha) (hq none (fun vs => ⟨by simp, by simp⟩))

theorem flatLoop_wp {m : Nat} {H0 : Mem} {out : Addr} {Q : Out Unit → Mem → Prop} : ∀ {rs : List Ref} {vs : List Value},
    List.Forall₂ (fun r v => see m H0 r = some v) rs vs → ∀ {xs : List Typed} {O : Mem}, Flat m H0 out xs O →
    (∀ O', O.LeBut out O' → Flat m H0 out (xs ++ flattenItems vs) O' → Q (.ok ()) O') →
    Wp H0 (forEach (flatOne m out) rs) O Q
  | _, _, .nil, xs, O, hf, hq => hq O Mem.LeBut.refl (by simpa [flattenItems] using hf)
  | r :: rs, v :: vs, .cons h1 hs, xs, O, hf, hq => by
    rw [forEach]
    refine Wp.bind ?_
    have next : ∀ O1, O.LeBut out O1 → Flat m H0 out (xs ++ flattenItems [v]) O1 →
        Wp H0 (forEach (flatOne m out) rs) O1 Q := by
      intro O1 l1 f1
      refine flatLoop_wp hs f1 (fun O2 l2 f2 => hq O2 (l1.trans l2) ?_)
      have : flattenItems (v :: vs) = flattenItems [v] ++ flattenItems vs := by
        cases v <;> simp [flattenItems]
      rw [this]
      simpa using f2
    rw [flatOne]
    refine Wp.bind (elementsH_wp h1 (fun o ho => ?_))
    cases o with
    | some ys =>
      obtain ⟨ws, hv, hall⟩ := ho
      refine addFlats_wp hall hf (fun O1 l1 f1 => next O1 l1 ?_)
      rcases hv with rfl | rfl <;> simpa [flattenItems] using f1
    | none =>
      refine addFlat_wp hf h1 (fun O1 l1 f1 => next O1 l1 ?_)
      cases v <;> first
        | exact absurd rfl (ho _).1
        | exact absurd rfl (ho _).2
        | exact f1

theorem mapToEvaluatedNodesH_wp {m : Nat} {H0 : Mem} {O : Mem} {src : Addr} {rs : List Ref} {vs : List Value}
    (hsrc : O src = some (.list rs)) (h : List.Forall₂ (fun r v => see m H0 r = some v) rs vs)
    {Q : Out Addr → Mem → Prop} (hq : ∀ out O', O.Le O' → Flat m H0 out (flattenItems vs) O' → Q (.ok out) O') :
    Wp H0 (mapToEvaluatedNodesH m src) O Q := by
  rw [mapToEvaluatedNodesH]
  refine Wp.alloc (fun out _ hfree => ?_)
  have hne : src ≠ out := by intro h; rw [h, hfree] at hsrc; cases hsrc
  refine Wp.read (o := .list rs) (.inr (by rw [Mem.put_ne hne]; exact hsrc)) ?_
  dsimp only
  have h0 : Flat m H0 out [] (O.put out (.evalds [])) := ⟨[], Mem.put_self, .nil⟩
  exact Wp.bind (flatLoop_wp h h0 (fun O' l f => hq out O' (l.of_put hfree) (by simpa using f)))

theorem typedH_wp {m : Nat} {H0 : Mem} {O : Mem} : ∀ {es : List Addr} {xs : List Typed} {Q : Out (List Typed) → Mem → Prop},
    List.Forall₂ (fun e (x : Typed) => ∃ r, O e = some (.evald x.2 r) ∧ see m H0 r = some x.1) es xs →
    Q (.ok xs) O → Wp H0 (typedH m es) O Q
  | _, _, _, .nil, hq => hq
  | e :: es, (v, t) :: xs, _, .cons ⟨r, h1, h2⟩ hs, hq => by
    rw [typedH]
    refine Wp.read (.inr h1) ?_
    exact Wp.deep h2 (Wp.bind (typedH_wp hs hq))

theorem readTyped_wp {m : Nat} {H0 : Mem} {O : Mem} {out : Addr} {xs : List Typed} (h : Flat m H0 out xs O)
    {Q : Out (List Typed) → Mem → Prop} (hq : Q (.ok xs) O) : Wp H0 (readTyped m out) O Q := by
  obtain ⟨es, h1, h2⟩ := h
  rw [readTyped]
  exact Wp.read (.inr h1) (typedH_wp h2 hq)

/-- All results in order, or the first exception. -/
def inOrder : List (Result Value) → Result (List Value)
  | [] => .ok []
  | g :: gs => do
    let v ← g
    let vs ← inOrder gs
    pure (v :: vs)

theorem collect_wp {m : Nat} {H0 : Mem} {out : Addr} {ev : Option Addr → HM Ref} {Q : Out Unit → Mem → Prop} :
    ∀ {ns : List (Option Addr)} {gs : List (Result Value)},
    List.Forall₂ (fun n g => Gives H0 (ev n) g (fun r v => see m H0 r = some v)) ns gs →
    ∀ {rs : List Ref} {vs : List Value} {O : Mem}, O out = some (.list rs) →
    List.Forall₂ (fun r v => see m H0 r = some v) rs vs →
    (∀ O', O.LeBut out O' →
      match inOrder gs with
      | .ok ws => ∀ rs', O' out = some (.list rs') → List.Forall₂ (fun r v => see m H0 r = some v) rs' (vs ++ ws) →
          Q (.ok ()) O'
      | .error e => Q (.thrown e) O') →
    Wp H0 (forEach (fun n => do let r ← ev n; addRef out r) ns) O Q
  | _, _, .nil, rs, vs, O, ho, hrs, hq => hq O Mem.LeBut.refl rs ho (by simpa using hrs)
  | n :: ns, g :: gs, .cons h1 hs, rs, vs, O, ho, hrs, hq => by
    rw [forEach, HM_assoc]
    refine (h1 O).then ?_ ?_
    · rintro v rfl r O1 hrv hle
      have ho1 := hle _ _ ho
      rw [addRef, HM_assoc]
      refine Wp.read (.inr ho1) ?_
      refine Wp.write ho1 ?_
      refine collect_wp hs (rs := rs ++ [r]) (vs := vs ++ [v]) Mem.put_self (List.rel_append hrs (.cons hrv .nil)) ?_
      intro O2 l2
      have l : O.LeBut out O2 := fun a o ha h => l2 a o ha (by rw [Mem.put_ne ha]; exact hle a o h)
      have := hq O2 l
      rw [inOrder, ok_bind] at this
      cases hio : inOrder gs with
      | ok ws =>
        rw [hio, ok_bind] at this
        intro rs' h1 h2
        exact this rs' h1 (by simpa using h2)
      | error e =>
        rw [hio] at this
        exact this
    · rintro e rfl O' hle
      exact hq O' (fun a o _ h => hle a o h)

/-- The items of a function call, an IN or a CONTAINS are resolved into a list of their own. -/
theorem resolve_gives {γ δ : Type} {m : Nat} {H0 : Mem} {items : Addr} {ns : List (Option Addr)}
    {gs : List (Result Value)} {ev : Option Addr → HM Ref} (hitems : H0 items = some (.nodes ns))
    (h : List.Forall₂ (fun n g => Gives H0 (ev n) g (fun r v => see m H0 r = some v)) ns gs)
    {cont : Addr → HM γ} {f : List Typed → Result δ} {R : γ → δ → Prop}
    (hc : ∀ out xs O, Flat m H0 out xs O → GivesAt H0 (cont out) (f xs) R O) :
    Gives H0 (do
      let resolved ← alloc (.list [])
      let ns ← readNodes items
      forEach (fun n => do let r ← ev n; addRef resolved r) ns
      let flat ← mapToEvaluatedNodesH m resolved
      cont flat) (inOrder gs >>= fun vs => f (flattenItems vs)) R := by
  intro O
  refine Wp.alloc (fun src _ hfree => ?_)
  rw [readNodes, HM_assoc]
  refine Wp.read (.inl hitems) ?_
  refine Wp.bind (x := forEach _ ns) (collect_wp h (rs := []) (vs := []) Mem.put_self .nil (fun O1 l1 => ?_))
  have l : O.Le O1 := l1.of_put hfree
  cases hio : inOrder gs with
  | error e => exact ⟨l, rfl⟩
  | ok ws =>
    intro rs hrs hall
    refine Wp.bind (mapToEvaluatedNodesH_wp hrs hall (fun out O2 l2 f2 => ?_))
    exact (hc out _ O2 f2).le (l.trans l2)

/-! ### The functions with state of their own -/

theorem medianH_gives {H0 : Mem} (items : List Typed) : Gives H0 (medianH items) (medianFn items) Eq := by
  rw [medianH, medianFn]
  refine Gives.bind Gives.lift (fun ds ds' h => ?_)
  subst h
  intro O
  refine Wp.alloc (fun a _ hfree => ?_)
  rw [sortH, HM_assoc]
  refine Wp.read (.inr Mem.put_self) ?_
  refine Wp.write Mem.put_self ?_
  rw [Mem.put_put]
  have hO : O.Le (O.put a (.decs (sortDecs ds))) := Mem.le_put hfree
  refine GivesAt.le hO ?_
  have key : ∀ {β γ : Type} (i : Nat) (f : Dec → HM β) (g : Dec → Result γ) (R : β → γ → Prop),
      (∀ x, GivesAt H0 (f x) (g x) R (O.put a (.decs (sortDecs ds)))) →
      GivesAt H0 (getAtH a i >>= f) (getAt (sortDecs ds) i >>= g) R (O.put a (.decs (sortDecs ds))) := by
    intro β γ i f g R hf
    rw [getAtH, HM_assoc]
    refine Wp.read (.inr Mem.put_self) ?_
    cases hx : getAt (sortDecs ds) i with
    | ok x =>
      dsimp only
      rw [hx]
      exact hf x
    | error e =>
      dsimp only
      rw [hx]
      exact ⟨Mem.Le.refl, rfl⟩
  dsimp only
  split
  · exact key _ _ _ _ (fun a => key _ _ _ _ (fun b =>
      Gives.bind Gives.lift (fun _ _ h => by subst h; exact Gives.lift) _))
  · exact key _ _ _ _ (fun a => Gives.lift _)

theorem modeLoopH_wp {H0 : Mem} {hm : Addr} {Q : Out Value → Mem → Prop} : ∀ (vs : List Value) (es : List (Value × Nat))
    (mx : Nat) (temp : Value) {O : Mem}, O hm = some (.counts es) →
    (∀ O', O.LeBut hm O' → Q (.ok (modeGo vs es mx temp)) O') → Wp H0 (modeLoopH hm vs mx temp) O Q
  | [], es, mx, temp, O, h, hq => hq O Mem.LeBut.refl
  | v :: vs, es, mx, temp, O, h, hq => by
    have l : ∀ o, O.LeBut hm (O.put hm o) := fun o a p ha hp => by rw [Mem.put_ne ha]; exact hp
    rw [modeLoopH]
    refine Wp.read (.inr h) ?_
    rw [modeGo] at hq
    dsimp only
    cases hc : countOf es v with
    | none =>
      rw [hc] at hq
      exact Wp.write h (modeLoopH_wp vs _ _ _ Mem.put_self (fun O' l' => hq O' ((l _).trans l')))
    | some c =>
      rw [hc] at hq
      refine Wp.write h ?_
      dsimp only at hq
      split at hq
      · next hlt =>
        rw [if_pos hlt]
        exact modeLoopH_wp vs _ _ _ Mem.put_self (fun O' l' => hq O' ((l _).trans l'))
      · next hlt =>
        rw [if_neg hlt]
        exact modeLoopH_wp vs _ _ _ Mem.put_self (fun O' l' => hq O' ((l _).trans l'))

theorem modeH_gives {H0 : Mem} (items : List Typed) : Gives H0 (modeH items) (modeFn items) Eq := by
  intro O
  rw [modeH]
  refine Wp.alloc (fun hm _ hfree => ?_)
  unfold modeFn
  cases items with
  | nil => exact ⟨Mem.le_put hfree, rfl⟩
  | cons x xs =>
    dsimp only
    refine Wp.bind (modeLoopH_wp _ [] 1 x.1 Mem.put_self (fun O' l => ?_))
    have hle : O.Le O' := l.of_put hfree
    dsimp only
    cases modeGo (((x :: xs) : List Typed).map Prod.fst) [] 1 x.1 with
    | dec d => exact GivesAt.le hle (Gives.lift _)
    | long n => exact ⟨hle, _, rfl, rfl⟩
    | _ => exact ⟨hle, _, rfl, rfl⟩

theorem callFn_check (env : Env) (f : FuncType) (items : List Typed) :
    callFn env f items = (checkCall f items >>= fun _ => evalFn env f items) := by
  rw [callFn, checkCall]
  by_cases h1 : items.isEmpty
  · simp only [h1, if_true]; rfl
  · by_cases h2 : (!(if 1 < items.length then f.allowsMany else f.allowsOne)) = true
    · simp only [h1, h2, if_true]; rfl
    · by_cases h3 : (!(items.all (fun x => f.allows x.2))) = true
      · simp only [h1, h2, h3, if_true]; rfl
      · simp only [h1, h2, h3]; rfl

theorem callFnH_gives {env : Env} {m : Nat} {H0 : Mem} {O : Mem} {f : FuncType} {out : Addr} {items : List Typed}
    (hf : Flat m H0 out items O) : GivesAt H0 (callFnH env m f out) (callFn env f items) Eq O := by
  rw [callFnH, callFn_check]
  refine Wp.bind (readTyped_wp hf ?_)
  refine (Gives.bind Gives.lift (fun u u' _ => ?_) : Gives H0 _ _ Eq) O
  cases f with
  | median => exact medianH_gives items
  | mode => exact modeH_gives items
  | _ => exact Gives.lift

/-! ### The evaluators -/

theorem evalArithAll_inOrder (env : Env) (d : Data) : ∀ ns : List Node,
    evalArithAll env d ns = inOrder (ns.map (evalArith env d))
  | [] => by rw [evalArithAll]; rfl
  | n :: ns => by rw [evalArithAll, evalArithAll_inOrder env d ns]; rfl

theorem evalItems_inOrder (env : Env) (d : Data) : ∀ ns : List Node,
    evalItems env d ns = inOrder (ns.map (fun n => itemValue env d n (evalBool env d n)))
  | [] => by rw [evalItems]; rfl
  | n :: ns => by rw [evalItems, evalItems_inOrder env d ns]; rfl

section
variable {env : Env} {m : Nat} {H0 : Mem} {d : Addr} {data : Data} (hd : see m H0 (.ptr d) = some (.map data))
include hd

theorem evalArithH_gives : ∀ (k : Nat) {a : Option Addr} {n : Node}, seeTree m k H0 a = some n →
    Gives H0 (evalArithH env m d k a) (evalArith env data n) (fun r v => see m H0 r = some v)
  | k, a, n, h => by
    obtain ⟨j, b, o, rfl, rfl, hb, hv⟩ := seeTree_inv h
    rw [evalArithH]
    refine Gives.node hb ?_
    cases hv with
    | arith hx hy =>
      rw [evalArith]
      refine Gives.bind (evalArithH_gives j hx) (fun x v hxv => Gives.bind (evalArithH_gives j hy) (fun y w hyw =>
        Gives.deep hxv (Gives.deep hyw ?_)))
      exact Gives.lift_then (fun u => Gives.pure (see_imm _ _ _))
    | neg hx =>
      rw [evalArith]
      refine Gives.bind (evalArithH_gives j hx) (fun x v hxv => Gives.deep hxv ?_)
      exact Gives.lift_then (fun u => Gives.pure (see_imm _ _ _))
    | @func f items ns xs hi hxs =>
      rw [evalArith, evalArithAll_inOrder]
      refine resolve_gives (f := fun ts => callFn env f ts) hi ?_ ?_
      · have := allSome_forall hxs
        clear hxs hi hb h
        induction this with
        | nil => exact .nil
        | cons h _ ih => exact .cons (evalArithH_gives j h) ih
      · intro out ts O hf
        refine (callFnH_gives (env := env) (f := f) hf).then ?_ ?_
        · rintro v e _ O' rfl hle
          rw [e]
          exact ⟨hle, _, rfl, see_imm _ _ _⟩
        · intro e he O' hle
          rw [he]
          exact ⟨hle, rfl⟩
    | unary hr => rw [evalArith]; exact Gives.pure hr
    | field => rw [evalArith]; exact requireFieldH_gives hd _
    | cmp _ _ => simp only [evalArith]; exact Gives.raise
    | range _ _ => simp only [evalArith]; exact Gives.raise
    | inn _ _ => simp only [evalArith]; exact Gives.raise
    | array _ _ => simp only [evalArith]; exact Gives.raise
    | and_ _ _ => simp only [evalArith]; exact Gives.raise
    | or_ _ _ => simp only [evalArith]; exact Gives.raise
    | not_ _ => simp only [evalArith]; exact Gives.raise
  termination_by k => k

theorem operandH_gives {k : Nat} {ev : Option Addr → HM Bool}
    (hev : ∀ {a n}, seeTree m k H0 a = some n → Gives H0 (ev a) (evalBool env data n) Eq) {a : Option Addr} {n : Node}
    (h : seeTree m k H0 a = some n) :
    Gives H0 (operandH env m d k ev a) (operandValue env data n (evalBool env data n)) (OptSees m H0) := by
  have ha := evalArithH_gives (env := env) hd k h
  have hb := hev h
  obtain ⟨j, b, o, rfl, rfl, ho, hv⟩ := seeTree_inv h
  have arith : n.isArithBase = true → (∀ f, n ≠ .field f) → (∀ t v, n ≠ .unary t v) →
      Gives H0 (evalArithH env m d (j + 1) (some b) >>= optOfH) (operandValue env data n (evalBool env data n))
        (OptSees m H0) := by
    intro h1 h2 h3
    have : operandValue env data n (evalBool env data n) = (evalArith env data n >>= optOf) := by
      cases n <;> first
        | exact absurd rfl (h2 _)
        | exact absurd rfl (h3 _ _)
        | rfl
        | cases h1
    rw [this]
    exact Gives.bind ha (fun r v h => optOfH_gives h)
  have bool : n.isArithBase = false →
      Gives H0 (ev (some b) >>= fun b => pure (some (.imm (.bool b)))) (operandValue env data n (evalBool env data n))
        (OptSees m H0) := by
    intro h1
    have : operandValue env data n (evalBool env data n) =
        (evalBool env data n >>= fun x => pure (some (.bool x))) := by
      cases n <;> first
        | cases h1; done
        | rfl
    rw [this]
    exact Gives.bind hb (fun x y e => by subst e; exact Gives.pure (see_imm _ _ _))
  rw [operandH]
  refine Gives.node ho ?_
  cases hv with
  | field => exact lookupFieldH_gives hd _
  | unary hr => exact optOfH_gives hr
  | arith _ _ => exact arith rfl (by simp) (by simp)
  | neg _ => exact arith rfl (by simp) (by simp)
  | func _ _ => exact arith rfl (by simp) (by simp)
  | cmp _ _ => exact bool rfl
  | range _ _ => exact bool rfl
  | inn _ _ => exact bool rfl
  | array _ _ => exact bool rfl
  | and_ _ _ => exact bool rfl
  | or_ _ _ => exact bool rfl
  | not_ _ => exact bool rfl

theorem itemH_gives {k : Nat} {ev : Option Addr → HM Bool}
    (hev : ∀ {a n}, seeTree m k H0 a = some n → Gives H0 (ev a) (evalBool env data n) Eq) {a : Option Addr} {n : Node}
    (h : seeTree m k H0 a = some n) :
    Gives H0 (itemH env m d k ev a) (itemValue env data n (evalBool env data n)) (fun r v => see m H0 r = some v) := by
  have ha := evalArithH_gives (env := env) hd k h
  have hb := hev h
  obtain ⟨j, b, o, rfl, rfl, ho, hv⟩ := seeTree_inv h
  have bool : n.isArithBase = false →
      Gives H0 (ev (some b) >>= fun b => pure (.imm (.bool b))) (itemValue env data n (evalBool env data n))
        (fun r v => see m H0 r = some v) := by
    intro h1
    have : itemValue env data n (evalBool env data n) =
        (evalBool env data n >>= fun x => pure (.bool x)) := by
      rw [itemValue, h1]; rfl
    rw [this]
    exact Gives.bind hb (fun x y e => by subst e; exact Gives.pure (see_imm _ _ _))
  rw [itemH]
  refine Gives.node ho ?_
  cases hv with
  | field => exact ha
  | unary hr => exact ha
  | arith _ _ => exact ha
  | neg _ => exact ha
  | func _ _ => exact ha
  | cmp _ _ => exact bool rfl
  | range _ _ => exact bool rfl
  | inn _ _ => exact bool rfl
  | array _ _ => exact bool rfl
  | and_ _ _ => exact bool rfl
  | or_ _ _ => exact bool rfl
  | not_ _ => exact bool rfl

theorem evalUnaryH_gives {dt : DataType} {r : Ref} {v : Value} (h : see m H0 r = some v) :
    Gives H0 (evalUnaryH m d dt r) (evalUnary data dt v) Eq := by
  rw [evalUnaryH]
  unfold evalUnary
  refine Gives.deep h ?_
  split
  · cases v <;> first
      | exact Gives.raise
      | exact Gives.pure rfl
  · refine Gives.bind Gives.lift (fun k k' hk => ?_)
    subst hk
    refine Gives.bind (requireFieldH_gives hd _) (fun x y hxy => ?_)
    cases x with
    | imm w =>
      rw [see_imm] at hxy
      cases hxy
      cases y <;> first
        | exact Gives.pure rfl
        | exact Gives.raise
    | ptr a =>
      obtain ⟨i, o, rfl, hb, hs⟩ := see_ptr hxy
      cases hs <;> exact Gives.raise

end

theorem isNullFieldH_gives {m k : Nat} {H0 : Mem} {a : Option Addr} {n : Node} (h : seeTree m k H0 a = some n) :
    Gives H0 (isNullFieldH a) n.isNullField Eq := by
  obtain ⟨j, b, o, rfl, rfl, ho, hv⟩ := seeTree_inv h
  rw [isNullFieldH]
  refine Gives.node ho ?_
  cases hv with
  | @field f =>
    cases f with
    | none => exact Gives.raise
    | some f => exact Gives.pure rfl
  | _ => exact Gives.pure rfl

theorem isNullCheckH_gives {m k : Nat} {H0 : Mem} {a b : Option Addr} {x y : Node} (op : CmpOp)
    (hx : seeTree m k H0 a = some x) (hy : seeTree m k H0 b = some y) :
    Gives H0 (isNullCheckH op a b) (isNullCheck op x y) Eq := by
  rw [isNullCheckH, isNullCheck]
  split
  · refine Gives.bind (isNullFieldH_gives hy) (fun p q e => ?_)
    subst e
    cases p with
    | true => exact Gives.pure rfl
    | false => exact isNullFieldH_gives hx
  · exact Gives.pure rfl

theorem items_forall {α β : Type} {f : α → Option β} {P : α → β → Prop} (hP : ∀ {x y}, f x = some y → P x y) :
    ∀ {xs : List α} {ys : List β}, allSome f xs = some ys → List.Forall₂ P xs ys :=
  fun h => (allSome_forall h).imp (fun _ _ h => hP h)

theorem evalBoolH_gives {env : Env} {m : Nat} {H0 : Mem} {d : Addr} {data : Data}
    (hd : see m H0 (.ptr d) = some (.map data)) : ∀ (k : Nat) {a : Option Addr} {n : Node},
    seeTree m k H0 a = some n → Gives H0 (evalBoolH env m d k a) (evalBool env data n) Eq
  | 0, a, n, h => by simp [seeTree] at h
  | j + 1, a, n, h => by
    obtain ⟨j', b, o, hj, rfl, hb, hv⟩ := seeTree_inv h
    cases hj
    have ih : ∀ {a n}, seeTree m j H0 a = some n → Gives H0 (evalBoolH env m d j a) (evalBool env data n) Eq :=
      fun h => evalBoolH_gives hd j h
    rw [evalBoolH]
    refine Gives.node hb ?_
    have items : ∀ {its ns xs} {f : List Typed → Result Bool} {cont : List Typed → HM Bool},
        H0 its = some (.nodes ns) → allSome (seeTree m j H0) ns = some xs →
        (∀ ts, Gives H0 (cont ts) (f ts) Eq) →
        Gives H0 (resolveH env m d j (evalBoolH env m d j) its >>= cont)
          (evalItems env data xs >>= fun vs => f (flattenItems vs)) Eq := by
      intro its ns xs f cont hi hxs hc
      have := resolve_gives (m := m) (f := f) (R := Eq) (cont := fun flat => readTyped m flat >>= cont)
        (ev := itemH env m d j (evalBoolH env m d j)) hi
        (gs := xs.map (fun n => itemValue env data n (evalBool env data n)))
        (List.forall₂_map_right_iff.2 ((allSome_forall hxs).imp (fun _ _ h => itemH_gives hd ih h)))
        (fun out ts O hf => Wp.bind (readTyped_wp hf (hc ts O)))
      rw [evalItems_inOrder]
      rw [resolveH]
      simp only [HM_assoc]
      exact this
    cases hv with
    | cmp hx hy =>
      rw [evalBool, evalComparison]
      refine Gives.bind (operandH_gives hd ih hx) (fun lo lo' hlo => Gives.bind (isNullCheckH_gives _ hx hy)
        (fun nc nc' hnc => ?_))
      subst hnc
      refine Gives.bind (R := fun r v => see m H0 r = some v) ?_ (fun x v hxv =>
        Gives.bind (R := fun r v => see m H0 r = some v) ?_ (fun y w hyw =>
        Gives.deep hxv (Gives.deep hyw Gives.lift)))
      · cases nc with
        | true =>
          cases lo <;> cases lo'
          · exact Gives.pure (see_imm _ _ _)
          · exact hlo.elim
          · exact hlo.elim
          · exact Gives.pure hlo
        | false =>
          cases lo <;> cases lo'
          · exact Gives.raise
          · exact hlo.elim
          · exact hlo.elim
          · exact Gives.pure hlo
      · cases nc with
        | true => exact Gives.pure (see_imm _ _ _)
        | false =>
          refine Gives.bind (operandH_gives hd ih hy) (fun o o' ho => ?_)
          cases o <;> cases o'
          · exact Gives.raise
          · exact ho.elim
          · exact ho.elim
          · exact Gives.pure ho
    | range hx hy =>
      rw [evalBool, evalRange]
      refine Gives.bind (requireFieldH_gives hd _) (fun x v hxv => Gives.deep hxv (Gives.deep hx (Gives.deep hy ?_)))
      refine Gives.bind Gives.lift (fun p p' hp => Gives.bind Gives.lift (fun q q' hq => ?_))
      subst hp hq
      exact Gives.pure rfl
    | inn hi hxs =>
      rw [evalBool]
      refine Gives.bind (requireFieldH_gives hd _) (fun x v hxv => Gives.deep hxv ?_)
      exact items hi hxs (fun ts => Gives.lift)
    | array hi hxs =>
      rw [evalBool]
      refine Gives.bind (requireFieldH_gives hd _) (fun x v hxv => Gives.deep hxv ?_)
      refine items (f := fun ts => do
        if heterogeneous ts then throw .heterogeneousArray
        logicalArray _ v (getDataType v) ts) hi hxs (fun ts => ?_)
      cases heterogeneous ts with
      | true => exact Gives.raise
      | false => exact Gives.lift
    | unary hr => rw [evalBool]; exact evalUnaryH_gives hd hr
    | and_ hx hy =>
      rw [evalBool]
      refine Gives.bind (ih hx) (fun p p' hp => ?_)
      subst hp
      cases p with
      | true => exact ih hy
      | false => exact Gives.pure rfl
    | or_ hx hy =>
      rw [evalBool]
      refine Gives.bind (ih hx) (fun p p' hp => ?_)
      subst hp
      cases p with
      | true => exact Gives.pure rfl
      | false => exact ih hy
    | not_ hx =>
      rw [evalBool]
      refine Gives.bind (ih hx) (fun p p' hp => ?_)
      subst hp
      exact Gives.pure rfl
    | field => rw [evalBool]; exact Gives.pure rfl
    | arith _ _ => rw [evalBool]; exact Gives.pure rfl
    | neg _ => rw [evalBool]; exact Gives.pure rfl
    | func _ _ => rw [evalBool]; exact Gives.pure rfl

end BoolParser
