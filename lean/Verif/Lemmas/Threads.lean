import Verif.Lemmas.ThreadSteps
/-!
# What stays true while threads take turns
-/

namespace BoolParser
open HM Spec

variable {P : Request → Result Node}

/-! ### What a call should come to -/

/-- The ending of a call, with what it returns seen in `V`. -/
def Fin (t : Job) (data : Data) (res : Result Node) (V : Mem) (out : Out Answer) : Prop :=
  match t.method with
  | .condition => EndsLike (res >>= evalBool t.env data) (fun x b => x = .truth b) out
  | .arithmetic => EndsLike (res >>= evalArith t.env data) (fun x v => ∃ r, x = .value r ∧ ∃ m, see m V r = some v) out
  | .parse => EndsLike res (fun x n => ∃ a, x = .node a ∧ ∃ m k, seeTree m k V (some a) = some n) out

/-- The data are seen in `V`. -/
def Sees (t : Job) (data : Data) (V : Mem) : Prop :=
  t.method ≠ .parse → see t.m V (.ptr t.data) = some (.map data)

theorem EndsLike.mono {α β : Type} {r : Result β} {R R' : α → β → Prop} {out : Out α} (h : ∀ a b, R a b → R' a b)
    (he : EndsLike r R out) : EndsLike r R' out := by
  unfold EndsLike at *
  cases r with
  | error e => exact he
  | ok b =>
    obtain ⟨a, h1, h2⟩ := he
    exact ⟨a, h1, h a b h2⟩

theorem Fin.mono {t : Job} {data : Data} {res : Result Node} {V W : Mem} {out : Out Answer} (hV : V.Le W)
    (h : Fin t data res V out) : Fin t data res W out := by
  unfold Fin at *
  split at h
  · exact h
  · exact h.mono (fun _ _ ⟨r, e, m, hs⟩ => ⟨r, e, m, see_mono hV m hs⟩)
  · exact h.mono (fun _ _ ⟨a, e, m, k, hs⟩ => ⟨a, e, m, k, seeTree_mono hV hs⟩)

theorem Sees.mono {t : Job} {data : Data} {V W : Mem} (hV : V.Le W) (h : Sees t data V) : Sees t data W :=
  fun hm => see_mono hV _ (h hm)

theorem on_fin {t : Job} {data : Data} {V : Mem} {a : Addr} {n : Node} (hd : Sees t data V)
    (hn : seeTree 0 (tall n) V (some a) = some n) (hk : t.method ≠ .parse → tall n ≤ t.k) (O : Mem) :
    Wp V (t.on a) O (fun out _ => Fin t data (.ok n) V out) := by
  have hn' : t.method ≠ .parse → seeTree t.m t.k V (some a) = some n :=
    fun hm => seeTree_le (Nat.zero_le _) (hk hm) hn
  unfold Job.on
  unfold Fin
  unfold Sees at hd
  revert hd hn'
  cases hm : t.method with
  | condition =>
    intro hd hn'
    have h := Gives.bind (evalBoolH_gives (env := t.env) (hd (by simp)) t.k (hn' (by simp))) (f := fun b => pure (Answer.truth b))
      (g := fun b => Except.ok b) (S := fun x b => x = .truth b) (fun a b e => Gives.pure (by rw [e]))
    refine (h O).mono (fun out O' h => ?_)
    have e : ∀ r : Result Bool, (r >>= fun b => Except.ok b) = r := fun r => by cases r <;> rfl
    rw [e] at h
    exact h.2
  | arithmetic =>
    intro hd hn'
    have h := Gives.bind (evalArithH_gives (env := t.env) (hd (by simp)) t.k (hn' (by simp))) (f := fun b => pure (Answer.value b))
      (g := fun b => Except.ok b) (S := fun x v => ∃ r, x = .value r ∧ ∃ m, see m V r = some v)
      (fun a b e => Gives.pure ⟨a, rfl, t.m, e⟩)
    refine (h O).mono (fun out O' h => ?_)
    have e : ∀ r : Result Value, (r >>= fun b => Except.ok b) = r := fun r => by cases r <;> rfl
    rw [e] at h
    exact h.2
  | parse =>
    intro _ _
    exact ⟨.node a, rfl, a, rfl, 0, tall n, hn⟩

theorem fin_error {t : Job} {data : Data} {V : Mem} {e : Exn} : Fin t data (.error e) V (.thrown e) := by
  unfold Fin
  cases t.method <;> rfl

/-- The objects of its own are not among those it relies on. -/
theorem Wp.disjoint {α : Type} {K : Mem} {Q : Out α → Mem → Prop} : ∀ {x : HM α} {O : Mem}, Wp K x O Q →
    (∀ a, K a = none ∨ O a = none) → Wp K x O (fun out O' => Q out O' ∧ ∀ a, K a = none ∨ O' a = none)
  | .done o, O, h, hd => ⟨h, hd⟩
  | .readThen a k, O, ⟨o, h1, h2⟩, hd => ⟨o, h1, Wp.disjoint h2 hd⟩
  | .writeThen a o k, O, ⟨h1, h2⟩, hd => by
    refine ⟨h1, Wp.disjoint h2 (fun b => ?_)⟩
    by_cases e : b = a
    · subst e
      rcases hd b with h | h
      · exact .inl h
      · rw [h] at h1; cases h1
    · rw [Mem.put_ne e]; exact hd b
  | .allocThen o k, O, h, hd => by
    intro a ha hO
    refine Wp.disjoint (h a ha hO) (fun b => ?_)
    by_cases e : b = a
    · subst e; exact .inl ha
    · rw [Mem.put_ne e]; exact hd b

theorem parse_wp {K : Mem} {r : Request} :
    Wp K (parseH P r) (fun _ => none) (fun out O => EndsLike (P r) (fun a n => seeTree 0 (tall n) O (some a) = some n) out) := by
  unfold parseH
  cases P r with
  | error e => exact rfl
  | ok n => exact makes n K _ _ (fun a O' _ h => ⟨a, rfl, h⟩)

theorem plain_fin {K : Mem} {r : Request} {t : Job} {data : Data} (hd : Sees t data K)
    (hk : ∀ n, P r = .ok n → t.method ≠ .parse → tall n ≤ t.k) :
    Wp K (parseH P r >>= t.on) (fun _ => none) (fun out O => Fin t data (P r) (K.or O) out) := by
  refine Wp.bind ((Wp.disjoint parse_wp (fun _ => .inr rfl)).mono ?_)
  rintro out O ⟨h, hdis⟩
  unfold EndsLike at h
  cases hP : P r with
  | error e =>
    rw [hP] at h
    rw [h]
    exact fin_error
  | ok n =>
    rw [hP] at h
    obtain ⟨a, rfl, hn⟩ := h
    have hOV : O.Le (K.or O) := by
      intro b o hb
      rcases hdis b with h | h
      · rw [Mem.or, h]; exact hb
      · rw [h] at hb; cases hb
    have h1 := on_fin (hd.mono (Mem.le_or (M := O))) (seeTree_mono hOV hn) (hk n hP) (fun _ => none)
    refine (Wp.adopt h1 Mem.Le.refl (fun _ _ e => by simp at e) (fun _ _ e => e) (fun _ => .inl rfl)).mono ?_
    rintro out N ⟨hON, _, hf⟩
    refine hf.mono ?_
    intro b o hb
    unfold Mem.or at hb ⊢
    cases hKb : K b with
    | some p => rw [hKb] at hb; exact hb
    | none => rw [hKb] at hb; exact hON b o hb

/-! ### One thread moves -/

/-- A part of the heap on which nobody is working. -/
def Safe (s : Pool) (M : Mem) : Prop := M.Le s.heap.mem ∧ ∀ i, Busy s i → ∀ b ∈ s.own i, M b = none

/-- The tree of an entry of the cache. -/
def Entry (P : Request → Result Node) (rs : List Request) (s : Pool) (key : JStr) (a : Addr) : Prop :=
  ∃ r n C, r ∈ rs ∧ cacheKey r = key ∧ P r = .ok n ∧ Safe s C ∧ seeTree 0 (tall n) C (some a) = some n ∧
    ∀ b o, C b = some o → LeadsTo C a b

/-- A thread writes only to objects of its own. -/
def OnlyOwn : Thread → List Addr → Prop
  | .loading _ _ x, own => Confined x own
  | .running _ x, own => Confined x own
  | _, _ => True

/-- What holds of every state of an orderly program in which the caching parser was asked for `rs`. -/
structure Settled (P : Request → Result Node) (rs : List Request) (s : Pool) : Prop where
  inside : ∀ i, Busy s i → ∀ a ∈ s.own i, a < s.heap.length
  apart : ∀ i j, i ≠ j → Busy s i → Busy s j → ∀ a ∈ s.own i, a ∉ s.own j
  confined : ∀ i, OnlyOwn (s.thread i) (s.own i)
  seeks : ∀ i t r, s.thread i = .seeking t r → r ∈ rs
  loads : ∀ i t key x, s.thread i = .loading t key x → ∃ r ∈ rs, cacheKey r = key ∧
    Wp (fun _ => none) x (mine (s.own i) s.heap)
      (fun out O => EndsLike (P r) (fun a n => seeTree 0 (tall n) O (some a) = some n) out)
  cached : ∀ key a, (key, a) ∈ s.cache → Entry P rs s key a

/-- The thread `i` (or the code outside) has moved, writing only to objects of that thread. -/
structure Goes (s s' : Pool) (i : Nat) : Prop where
  thread : ∀ j, j ≠ i → s'.thread j = s.thread j
  own : ∀ j, j ≠ i → s'.own j = s.own j
  heap : ∃ own0, (∀ a ∈ own0, Busy s i ∧ a ∈ s.own i) ∧ Keeps own0 s.heap s'.heap ∧
    (Busy s' i → ∀ a ∈ s'.own i, a < s'.heap.length ∧ (a ∈ own0 ∨ s.heap.length ≤ a))

theorem busy_of {s s' : Pool} {j : Nat} (h : s'.thread j = s.thread j) : Busy s' j ↔ Busy s j := by
  unfold Busy
  rw [h]

theorem Goes.safe {s s' : Pool} {i : Nat} (h : Goes s s' i) {M : Mem} (hM : Safe s M) : Safe s' M := by
  obtain ⟨own0, h1, h2, h3⟩ := h.heap
  refine ⟨h2.le hM.1 (fun a ha => hM.2 i (h1 a ha).1 a (h1 a ha).2), fun j hj b hb => ?_⟩
  by_cases e : j = i
  · subst e
    rcases (h3 hj b hb).2 with h4 | h4
    · exact hM.2 j (h1 b h4).1 b (h1 b h4).2
    · cases hMb : M b with
      | none => rfl
      | some o => exact absurd (get_lt (hM.1 b o hMb)) (Nat.not_lt.2 h4)
  · rw [h.own j e] at hb
    exact hM.2 j ((busy_of (h.thread j e)).1 hj) b hb

theorem Goes.mine {rs : List Request} {s s' : Pool} {i : Nat} (h : Goes s s' i) (hs : Settled P rs s) {j : Nat}
    (hj : j ≠ i) (hb : Busy s j) : mine (s'.own j) s'.heap = mine (s.own j) s.heap := by
  obtain ⟨own0, h1, h2, _⟩ := h.heap
  rw [h.own j hj]
  exact h2.mine (hs.inside j hb) (fun a ha => hs.apart i j hj.symm (h1 a ha).1 hb a (h1 a ha).2)

theorem Entry.mono {rs rs' : List Request} {s s' : Pool} {key : JStr} {a : Addr} (hr : ∀ r ∈ rs, r ∈ rs')
    (hs : ∀ C : Mem, Safe s C → (∀ b o, C b = some o → LeadsTo C a b) → Safe s' C) (h : Entry P rs s key a) :
    Entry P rs' s' key a := by
  obtain ⟨r, n, C, h1, h2, h3, h4, h5, h6⟩ := h
  exact ⟨r, n, C, hr r h1, h2, h3, hs C h4 h6, h5, h6⟩

theorem loading_busy {s : Pool} {i : Nat} {t : Job} {key : JStr} {x : HM Addr} (h : s.thread i = .loading t key x) :
    Busy s i := by
  unfold Busy
  rw [h]
  trivial

theorem Settled.goes {rs rs' : List Request} {s s' : Pool} {i : Nat} (hs : Settled P rs s) (hg : Goes s s' i)
    (hr : ∀ r ∈ rs, r ∈ rs') (hc : OnlyOwn (s'.thread i) (s'.own i))
    (hsk : ∀ t r, s'.thread i = .seeking t r → r ∈ rs')
    (hl : ∀ t key x, s'.thread i = .loading t key x → ∃ r ∈ rs', cacheKey r = key ∧
      Wp (fun _ => none) x (BoolParser.mine (s'.own i) s'.heap)
        (fun out O => EndsLike (P r) (fun a n => seeTree 0 (tall n) O (some a) = some n) out))
    (hca : ∀ key a, (key, a) ∈ s'.cache → (key, a) ∈ s.cache ∨ Entry P rs' s' key a) : Settled P rs' s' := by
  obtain ⟨own0, h1, h2, h3⟩ := hg.heap
  have hb : ∀ j, j ≠ i → (Busy s' j ↔ Busy s j) := fun j hj => busy_of (hg.thread j hj)
  have hin : ∀ j, Busy s' j → ∀ a ∈ s'.own j, a < s'.heap.length := by
    intro j hj a ha
    by_cases e : j = i
    · subst e; exact (h3 hj a ha).1
    · rw [hg.own j e] at ha
      exact Nat.lt_of_lt_of_le (hs.inside j ((hb j e).1 hj) a ha) h2.1
  have hap : ∀ j, j ≠ i → Busy s' i → Busy s' j → ∀ a ∈ s'.own i, a ∉ s'.own j := by
    intro j hj b1 b2 a ha ha'
    rw [hg.own j hj] at ha'
    have b3 := (hb j hj).1 b2
    rcases (h3 b1 a ha).2 with h4 | h4
    · exact hs.apart i j hj.symm (h1 a h4).1 b3 a (h1 a h4).2 ha'
    · exact Nat.not_lt.2 h4 (hs.inside j b3 a ha')
  refine ⟨hin, ?_, ?_, ?_, ?_, ?_⟩
  · intro j k hjk b1 b2 a ha ha'
    by_cases e : j = i
    · subst e; exact hap k hjk.symm b1 b2 a ha ha'
    · by_cases e' : k = i
      · subst e'; exact hap j hjk b2 b1 a ha' ha
      · rw [hg.own j e] at ha
        rw [hg.own k e'] at ha'
        exact hs.apart j k hjk ((hb j e).1 b1) ((hb k e').1 b2) a ha ha'
  · intro j
    by_cases e : j = i
    · subst e; exact hc
    · rw [hg.thread j e, hg.own j e]; exact hs.confined j
  · intro j t r ht
    by_cases e : j = i
    · subst e; exact hsk t r ht
    · rw [hg.thread j e] at ht; exact hr r (hs.seeks j t r ht)
  · intro j t key x ht
    by_cases e : j = i
    · subst e; exact hl t key x ht
    · rw [hg.thread j e] at ht
      obtain ⟨r, hr1, hr2, hr3⟩ := hs.loads j t key x ht
      refine ⟨r, hr r hr1, hr2, ?_⟩
      rw [hg.mine hs e (loading_busy ht)]
      exact hr3
  · intro key a ha
    rcases hca key a ha with h | h
    · exact (hs.cached key a h).mono hr (fun C hC _ => hg.safe hC)
    · exact h

/-! ### The moves -/

@[simp] theorem set_thread {s : Pool} {i : Nat} {th : Thread} {own : List Addr} : (s.set i th own).thread i = th := by
  simp [Pool.set]

@[simp] theorem set_own {s : Pool} {i : Nat} {th : Thread} {own : List Addr} : (s.set i th own).own i = own := by
  simp [Pool.set]

theorem set_thread_ne {s : Pool} {i j : Nat} {th : Thread} {own : List Addr} (h : j ≠ i) :
    (s.set i th own).thread j = s.thread j := by
  simp [Pool.set, h]

theorem set_own_ne {s : Pool} {i j : Nat} {th : Thread} {own : List Addr} (h : j ≠ i) :
    (s.set i th own).own j = s.own j := by
  simp [Pool.set, h]

/-- The cases of a turn. -/
inductive Turned (P : Request → Result Node) (s : Pool) (i : Nat) : Pool → Prop where
  | idle : s.thread i = .idle → Turned P s i s
  | hit {t r a} : s.thread i = .seeking t r → (cacheKey r, a) ∈ s.cache →
      Turned P s i (s.set i (.running (a :: t.args) (t.on a)) [])
  | miss {t r} : s.thread i = .seeking t r → Turned P s i (s.set i (.loading t (cacheKey r) (parseH P r)) [])
  | found {t key a b} : s.thread i = .loading t key (.done (.ok a)) → (key, b) ∈ s.cache →
      Turned P s i (s.set i (.running (b :: t.args) (t.on b)) [])
  | stored {t key a} : s.thread i = .loading t key (.done (.ok a)) →
      Turned P s i ({ s with cache := (key, a) :: s.cache }.set i (.running (a :: t.args) (t.on a)) [])
  | failed {t key e} : s.thread i = .loading t key (.done (.thrown e)) →
      Turned P s i (s.set i (.running t.args (.done (.thrown e))) [])
  | lost {t key} : s.thread i = .loading t key (.done .stuck) →
      Turned P s i (s.set i (.running t.args (.done .stuck)) [])
  | loads {t key x} : s.thread i = .loading t key x →
      Turned P s i ({ s with heap := (x.step s.heap (s.own i)).2.1 }.set i (.loading t key (x.step s.heap (s.own i)).1)
        (x.step s.heap (s.own i)).2.2)
  | runs {args x} : s.thread i = .running args x →
      Turned P s i ({ s with heap := (x.step s.heap (s.own i)).2.1 }.set i (.running args (x.step s.heap (s.own i)).1)
        (x.step s.heap (s.own i)).2.2)

theorem turned (s : Pool) (i : Nat) : Turned P s i (s.turn P i) := by
  unfold Pool.turn
  cases h : s.thread i with
  | idle => exact .idle h
  | seeking t r =>
    dsimp only
    split
    · next a ha => exact .hit h (findAddr_mem ha)
    · exact .miss h
  | loading t key x =>
    cases x with
    | done o =>
      cases o with
      | ok a =>
        dsimp only
        split
        · next b hb => exact .found h (findAddr_mem hb)
        · exact .stored h
      | thrown e => exact .failed h
      | stuck => exact .lost h
    | readThen a k => exact .loads h
    | writeThen a o k => exact .loads h
    | allocThen o k => exact .loads h
  | running args x => exact .runs h

/-- A thread goes on without touching the heap. -/
theorem goes_set {s : Pool} {i : Nat} {th : Thread} (c : List (JStr × Addr)) :
    Goes s ({ s with cache := c }.set i th []) i where
  thread := fun _ hj => set_thread_ne hj
  own := fun _ hj => set_own_ne hj
  heap := ⟨[], by simp, Keeps.refl, fun _ a ha => by simp at ha⟩

theorem running_busy {s : Pool} {i : Nat} {args : List Addr} {x : HM Answer} (h : s.thread i = .running args x)
    (hx : ∀ o, x ≠ .done o) : Busy s i := by
  unfold Busy
  rw [h]
  cases x with
  | done o => exact absurd rfl (hx o)
  | _ => trivial

/-- A thread takes a step on the heap. -/
theorem goes_step {α : Type} {s : Pool} {i : Nat} {th : Thread} {x : HM α} (hb : Busy s i)
    (hi : ∀ a ∈ s.own i, a < s.heap.length) (hc : Confined x (s.own i)) :
    Goes s ({ s with heap := (x.step s.heap (s.own i)).2.1 }.set i th (x.step s.heap (s.own i)).2.2) i := by
  obtain ⟨_, h2, h3, h4⟩ := step_effect hc hi
  refine ⟨fun _ hj => set_thread_ne hj, fun _ hj => set_own_ne hj, s.own i, fun a ha => ⟨hb, ha⟩, h2, fun _ a ha => ?_⟩
  rw [set_own] at ha
  exact ⟨h3 a ha, h4 a ha⟩

theorem confined_done {α : Type} {o : Out α} {own : List Addr} : Confined (.done o) own := fun _ _ _ _ => trivial

theorem confined_on {t : Job} {a : Addr} : Confined (t.on a) [] := fun _ _ => on_fr

theorem set_same {s : Pool} {i : Nat} : s.set i (s.thread i) (s.own i) = s := by
  unfold Pool.set
  have h1 : (fun j => if j = i then s.thread i else s.thread j) = s.thread := by
    funext j
    split
    · next e => rw [e]
    · rfl
  have h2 : (fun j => if j = i then s.own i else s.own j) = s.own := by
    funext j
    split
    · next e => rw [e]
    · rfl
  rw [h1, h2]

theorem Settled.turn {rs : List Request} {s s' : Pool} {i : Nat} (hs : Settled P rs s) (h : Turned P s i s') :
    Settled P rs s' := by
  cases h with
  | idle _ => exact hs
  | hit ht ha =>
    refine hs.goes (goes_set s.cache) (fun _ h => h) ?_ ?_ ?_ (fun _ _ h => .inl h)
    · rw [set_thread, set_own]; exact confined_on
    · intro t r e; rw [set_thread] at e; cases e
    · intro t key x e; rw [set_thread] at e; cases e
  | miss ht =>
    refine hs.goes (goes_set s.cache) (fun _ h => h) ?_ ?_ ?_ (fun _ _ h => .inl h)
    · rw [set_thread, set_own]; exact fun _ _ => parseH_fr
    · intro t r e; rw [set_thread] at e; cases e
    · intro t key x e
      rw [set_thread] at e
      cases e
      refine ⟨_, hs.seeks _ _ _ ht, rfl, ?_⟩
      rw [set_own, mine_nil]
      exact parse_wp
  | found ht ha =>
    refine hs.goes (goes_set s.cache) (fun _ h => h) ?_ ?_ ?_ (fun _ _ h => .inl h)
    · rw [set_thread, set_own]; exact confined_on
    · intro t r e; rw [set_thread] at e; cases e
    · intro t key x e; rw [set_thread] at e; cases e
  | @stored t key a ht =>
    refine hs.goes (goes_set _) (fun _ h => h) ?_ ?_ ?_ ?_
    · rw [set_thread, set_own]; exact confined_on
    · intro t r e; rw [set_thread] at e; cases e
    · intro t key x e; rw [set_thread] at e; cases e
    · intro key' a' hm
      rcases List.mem_cons.1 hm with e | hm
      · cases e
        refine .inr ?_
        obtain ⟨r, hr1, hr2, hr3⟩ := hs.loads i t key _ ht
        have h4 : EndsLike (P r) (fun a n => seeTree 0 (tall n) (mine (s.own i) s.heap) (some a) = some n) (.ok a) := hr3
        unfold EndsLike at h4
        cases hP : P r with
        | error e => rw [hP] at h4; cases h4
        | ok n =>
          rw [hP] at h4
          obtain ⟨_, e, h5⟩ := h4
          cases e
          refine ⟨r, n, reach (mine (s.own i) s.heap) [a], hr1, hr2, hP, ⟨?_, ?_⟩, seeTree_reach List.mem_cons_self h5, ?_⟩
          · exact reach_le.trans mine_le
          · intro j hj b hb
            by_cases e : j = i
            · subst e
              rw [set_own] at hb
              cases hb
            · rw [set_own_ne e] at hb
              have hj' : Busy s j :=
                (busy_of (set_thread_ne (s := { s with cache := (key, a) :: s.cache }) (own := []) e)).1 hj
              cases hx : reach (mine (s.own i) s.heap) [a] b with
              | none => rfl
              | some o =>
                have h6 := reach_le b o hx
                unfold mine at h6
                split at h6
                · next h7 => exact absurd hb (hs.apart i j (Ne.symm e) (loading_busy ht) hj' b h7)
                · cases h6
          · intro b o hb
            obtain ⟨c, hc, hl⟩ := reach_leads hb
            rw [List.mem_singleton] at hc
            exact hc ▸ hl
      · exact .inl hm
  | failed ht =>
    refine hs.goes (goes_set s.cache) (fun _ h => h) ?_ ?_ ?_ (fun _ _ h => .inl h)
    · rw [set_thread, set_own]; exact confined_done
    · intro t r e; rw [set_thread] at e; cases e
    · intro t key x e; rw [set_thread] at e; cases e
  | lost ht =>
    refine hs.goes (goes_set s.cache) (fun _ h => h) ?_ ?_ ?_ (fun _ _ h => .inl h)
    · rw [set_thread, set_own]; exact confined_done
    · intro t r e; rw [set_thread] at e; cases e
    · intro t key x e; rw [set_thread] at e; cases e
  | @loads t key x ht =>
    have hb := loading_busy ht
    have hc := hs.confined i
    rw [ht] at hc
    have he := step_effect hc (hs.inside i hb)
    refine hs.goes (goes_step hb (hs.inside i hb) hc) (fun _ h => h) ?_ ?_ ?_ (fun _ _ h => .inl h)
    · rw [set_thread, set_own]; exact he.1
    · intro t r e; rw [set_thread] at e; cases e
    · intro t' key' x' e
      rw [set_thread] at e
      cases e
      obtain ⟨r, hr1, hr2, hr3⟩ := hs.loads i t key x ht
      refine ⟨r, hr1, hr2, ?_⟩
      rw [set_own]
      exact (hr3.step (fun _ _ e => by simp at e) (fun _ _ => rfl) (hs.inside i hb)).1
  | @runs args x ht =>
    by_cases hx : ∃ o, x = .done o
    · obtain ⟨o, rfl⟩ := hx
      have e : ({ s with heap := s.heap } : Pool).set i (.running args (.done o)) (s.own i) = s := by
        rw [← ht]
        exact set_same
      show Settled P rs (({ s with heap := s.heap } : Pool).set i (.running args (.done o)) (s.own i))
      rw [e]
      exact hs
    · have hb := running_busy ht (fun o e => hx ⟨o, e⟩)
      have hc := hs.confined i
      rw [ht] at hc
      have he := step_effect hc (hs.inside i hb)
      refine hs.goes (goes_step hb (hs.inside i hb) hc) (fun _ h => h) ?_ ?_ ?_ (fun _ _ h => .inl h)
      · rw [set_thread, set_own]; exact he.1
      · intro t r e; rw [set_thread] at e; cases e
      · intro t key x e; rw [set_thread] at e; cases e

theorem goes_call {s : Pool} {i : Nat} {t : Job} {src : Source} {r : Request} :
    Goes s (s.step P (.call i t src r)) i := goes_set s.cache

theorem goes_evict {s : Pool} {keep : JStr → Bool} (hin : ∀ i, Busy s i → ∀ a ∈ s.own i, a < s.heap.length) (i : Nat) :
    Goes s (s.step P (.evict keep)) i where
  thread := fun _ _ => rfl
  own := fun _ _ => rfl
  heap := by
    by_cases hb : Busy s i
    · exact ⟨s.own i, fun a ha => ⟨hb, ha⟩, Keeps.refl, fun _ a ha => ⟨hin i hb a ha, .inl ha⟩⟩
    · exact ⟨[], by simp, Keeps.refl, fun h => absurd h hb⟩

theorem goes_create {s : Pool} {o : Obj} (hin : ∀ i, Busy s i → ∀ a ∈ s.own i, a < s.heap.length) (i : Nat) :
    Goes s (s.step P (.create o)) i where
  thread := fun _ _ => rfl
  own := fun _ _ => rfl
  heap := by
    by_cases hb : Busy s i
    · refine ⟨s.own i, fun a ha => ⟨hb, ha⟩, Keeps.grow, fun _ a ha => ⟨?_, .inl ha⟩⟩
      exact Nat.lt_of_lt_of_le (hin i hb a ha) (by simp [Pool.step])
    · exact ⟨[], by simp, Keeps.grow, fun h => absurd h hb⟩

theorem safe_change {s : Pool} {b : Addr} {o : Obj} {M : Mem} (hM : Safe s M) (hb : M b = none) :
    Safe (s.step P (.change b o)) M := by
  refine ⟨fun a p ha => ?_, hM.2⟩
  show (s.heap.set b o)[a]? = some p
  rw [List.getElem?_set_ne (fun e => by subst e; rw [hb] at ha; cases ha)]
  exact hM.1 a p ha

theorem mine_change {s : Pool} {b : Addr} {o : Obj} {i : Nat} (h : b ∉ s.own i) :
    mine (s.own i) (s.heap.set b o) = mine (s.own i) s.heap :=
  mine_eq (fun a ha => List.getElem?_set_ne (fun e : b = a => h (e ▸ ha)))

theorem Safe.unled {s : Pool} {M : Mem} (hM : Safe s M) {cs : List Addr}
    (hl : ∀ b o, M b = some o → ∃ c ∈ cs, LeadsTo M c b) {b : Addr} (hb : ∀ c ∈ cs, ¬ LeadsTo s.heap.mem c b) :
    M b = none := by
  cases h : M b with
  | none => rfl
  | some o =>
    obtain ⟨c, hc, hcb⟩ := hl b o h
    exact absurd (leadsTo_mono hM.1 hcb) (hb c hc)

/-- The requests asked of the caching parser. -/
def asks (mv : Move) : List Request := (cachedCall mv).toList

theorem Settled.step {rs : List Request} {s : Pool} {mv : Move} (hs : Settled P rs s) (ha : Allowed s mv) :
    Settled P (rs ++ asks mv) (s.step P mv) := by
  cases mv with
  | turn i =>
    rw [show asks (.turn i) = [] from rfl, List.append_nil]
    exact hs.turn (turned s i)
  | call i t src r =>
    refine hs.goes goes_call (fun _ h => List.mem_append_left _ h) ?_ ?_ ?_ (fun _ _ h => .inl h)
    · show OnlyOwn ((s.set i (t.begin P src r) []).thread i) ((s.set i (t.begin P src r) []).own i)
      rw [set_thread, set_own]
      cases src with
      | plain => exact fun _ _ => Fr.bind parseH_fr (fun _ _ => on_fr)
      | cached => exact trivial
    · intro t' r' e
      have e' : t.begin P src r = .seeking t' r' := by
        rw [← e]; exact set_thread.symm
      cases src with
      | plain => cases e'
      | cached => cases e'; exact List.mem_append_right _ (by simp [asks, cachedCall])
    · intro t' key x e
      have e' : t.begin P src r = .loading t' key x := by
        rw [← e]; exact set_thread.symm
      cases src <;> cases e'
  | evict keep =>
    rw [show asks (.evict keep) = [] from rfl, List.append_nil]
    exact hs.goes (goes_evict hs.inside 0) (fun _ h => h) (hs.confined 0) (hs.seeks 0) (hs.loads 0)
      (fun _ _ h => .inl (List.mem_of_mem_filter h))
  | create o =>
    rw [show asks (.create o) = [] from rfl, List.append_nil]
    refine hs.goes (goes_create hs.inside 0) (fun _ h => h) (hs.confined 0) (hs.seeks 0) ?_ (fun _ _ h => .inl h)
    intro t key x ht
    obtain ⟨r, h1, h2, h3⟩ := hs.loads 0 t key x ht
    refine ⟨r, h1, h2, ?_⟩
    have e : mine (s.own 0) (s.heap ++ [o]) = mine (s.own 0) s.heap :=
      mine_eq (fun a ha => List.getElem?_append_left (hs.inside 0 (loading_busy ht) a ha))
    show Wp _ x (mine (s.own 0) (s.heap ++ [o])) _
    rw [e]
    exact h3
  | change b o =>
    rw [show asks (.change b o) = [] from rfl, List.append_nil]
    refine ⟨?_, hs.apart, hs.confined, hs.seeks, ?_, ?_⟩
    · intro i hi a ha'
      show a < (s.heap.set b o).length
      rw [List.length_set]
      exact hs.inside i hi a ha'
    · intro i t key x ht
      obtain ⟨r, h1, h2, h3⟩ := hs.loads i t key x ht
      refine ⟨r, h1, h2, ?_⟩
      show Wp _ x (mine (s.own i) (s.heap.set b o)) _
      rw [mine_change (ha.2 i (loading_busy ht)).1]
      exact h3
    · intro key a hm
      refine (hs.cached key a hm).mono (fun _ h => h) (fun C hC hl => safe_change hC ?_)
      exact hC.unled (cs := [a]) (fun b o hb => ⟨a, List.mem_cons_self, hl b o hb⟩) (fun c hc => by
        rw [List.mem_singleton] at hc
        exact hc ▸ ha.1 key a hm)

theorem sound_start : Settled P [] Pool.start where
  inside := fun i h => absurd h (by simp [Busy, Pool.start])
  apart := fun i _ _ h => absurd h (by simp [Busy, Pool.start])
  confined := fun _ => trivial
  seeks := fun i t r h => by cases h
  loads := fun i t key x h => by cases h
  cached := fun key a h => by cases h

theorem orderly_append {s : Pool} : ∀ {ms ms' : List Move}, Orderly P s (ms ++ ms') ↔
    Orderly P s ms ∧ Orderly P (ms.foldl (Pool.step P) s) ms'
  | [], ms' => by simp [Orderly]
  | mv :: ms, ms' => by
    rw [List.cons_append, Orderly, Orderly, orderly_append, List.foldl_cons, and_assoc]

theorem Settled.steps : ∀ {ms : List Move} {s : Pool} {rs : List Request}, Settled P rs s →
    Orderly P s ms → Settled P (rs ++ ms.filterMap cachedCall) (ms.foldl (Pool.step P) s)
  | [], s, rs, hs, _ => by rw [List.filterMap_nil, List.append_nil]; exact hs
  | mv :: ms, s, rs, hs, ho => by
    have h := Settled.steps (hs.step ho.1) ho.2
    have e : rs ++ asks mv ++ ms.filterMap cachedCall = rs ++ (mv :: ms).filterMap cachedCall := by
      rw [List.append_assoc]
      congr 1
      unfold asks
      cases hc : cachedCall mv with
      | none => rw [List.filterMap_cons_none hc]; rfl
      | some r => rw [List.filterMap_cons_some hc]; rfl
    rw [e] at h
    exact h

/-! ### The call of one thread -/

/-- How far the thread `i` is with the call `t` about `r`, relying on `K`. -/
def Stage (P : Request → Result Node) (t : Job) (r : Request) (data : Data) (K : Mem) (th : Thread) (O : Mem) : Prop :=
  match th with
  | .idle => False
  | .seeking t' r' => t' = t ∧ r' = r ∧ Sees t data K
  | .loading t' key _ => t' = t ∧ key = cacheKey r ∧ Sees t data K
  | .running _ x => Wp K x O (fun out O' => Fin t data (P r) (K.or O') out)

/-- The call goes as it should. -/
def Due (P : Request → Result Node) (t : Job) (r : Request) (data : Data) (s : Pool) (i : Nat) : Prop :=
  ∃ K : Mem, Safe s K ∧ (∀ b o, K b = some o → ∃ c ∈ handed (s.thread i), LeadsTo K c b) ∧
    Stage P t r data K (s.thread i) (mine (s.own i) s.heap)

theorem due_found {rs : List Request} {s : Pool} {i : Nat} {t : Job} {r : Request} {data : Data} {a : Addr} {K : Mem}
    (hk : ∀ n, P r = .ok n → t.method ≠ .parse → tall n ≤ t.k) (hkey : ∀ r' ∈ rs, cacheKey r' = cacheKey r → r' = r)
    (ht : s.thread i = .running (a :: t.args) (t.on a)) (he : Entry P rs s (cacheKey r) a)
    (hK : Safe s K) (hl : ∀ b o, K b = some o → ∃ c ∈ t.args, LeadsTo K c b) (hd : Sees t data K) :
    Due P t r data s i := by
  obtain ⟨r', n, C, h1, h2, h3, h4, h5, h6⟩ := he
  have e := hkey r' h1 h2
  subst e
  have hCK : C.Le (K.or C) := Mem.or_le_right hK.1 h4.1
  refine ⟨K.or C, ⟨Mem.or_le hK.1 h4.1, fun j hj b hb => Mem.or_none.2 ⟨hK.2 j hj b hb, h4.2 j hj b hb⟩⟩, ?_, ?_⟩
  · intro b o hb
    rw [ht]
    unfold Mem.or at hb
    cases hKb : K b with
    | some p =>
      obtain ⟨c, hc, hcb⟩ := hl b p hKb
      exact ⟨c, List.mem_cons_of_mem _ hc, leadsTo_mono Mem.le_or hcb⟩
    | none =>
      rw [hKb] at hb
      exact ⟨a, List.mem_cons_self, leadsTo_mono hCK (h6 b o hb)⟩
  · rw [ht]
    show Wp _ _ _ _
    rw [h3]
    exact (on_fin (hd.mono Mem.le_or) (seeTree_mono hCK h5) (hk n h3) _).mono
      (fun out O' h => h.mono Mem.le_or)

/-- What the others do does not matter. -/
theorem Due.other {s s' : Pool} {i : Nat} {t : Job} {r : Request} {data : Data} (h : Due P t r data s i)
    (h1 : s'.thread i = s.thread i) (h2 : mine (s'.own i) s'.heap = mine (s.own i) s.heap)
    (h3 : ∀ K, Safe s K → (∀ b o, K b = some o → ∃ c ∈ handed (s.thread i), LeadsTo K c b) → Safe s' K) :
    Due P t r data s' i := by
  obtain ⟨K, hK, hl, hst⟩ := h
  exact ⟨K, h3 K hK hl, by rw [h1]; exact hl, by rw [h1, h2]; exact hst⟩

/-- The node has been found. -/
def Running : Thread → Prop
  | .running _ _ => True
  | _ => False

theorem Due.turn {rs : List Request} {s s' : Pool} {i : Nat} {t : Job} {r : Request} {data : Data}
    (hs : Settled P rs s) (hs' : Settled P rs s') (hk : ∀ n, P r = .ok n → t.method ≠ .parse → tall n ≤ t.k)
    (hkey' : Running (s.thread i) ∨ ∀ r' ∈ rs, cacheKey r' = cacheKey r → r' = r) (h : Due P t r data s i)
    (hb : Busy s i) (hm : Turned P s i s') : Due P t r data s' i := by
  obtain ⟨K, hK, hl, hst⟩ := h
  have hkey : ¬ Running (s.thread i) → ∀ r' ∈ rs, cacheKey r' = cacheKey r → r' = r := fun h => hkey'.resolve_left h
  cases hm with
  | idle ht => rw [ht] at hst; exact hst.elim
  | @hit t' r' a ht ha =>
    rw [ht] at hst hl
    obtain ⟨rfl, rfl, hd⟩ := hst
    exact due_found hk (hkey (by rw [ht]; exact id)) set_thread (hs'.cached _ _ ha) ((goes_set s.cache).safe hK) hl hd
  | @miss t' r' ht =>
    rw [ht] at hst hl
    obtain ⟨rfl, rfl, hd⟩ := hst
    refine ⟨K, (goes_set s.cache).safe hK, ?_, ?_⟩
    · rw [set_thread]; exact hl
    · rw [set_thread]; exact ⟨rfl, rfl, hd⟩
  | @found t' key a b ht ha =>
    rw [ht] at hst hl
    obtain ⟨rfl, rfl, hd⟩ := hst
    exact due_found hk (hkey (by rw [ht]; exact id)) set_thread (hs'.cached _ _ ha) ((goes_set s.cache).safe hK) hl hd
  | @stored t' key a ht =>
    rw [ht] at hst hl
    obtain ⟨rfl, rfl, hd⟩ := hst
    exact due_found hk (hkey (by rw [ht]; exact id)) set_thread (hs'.cached _ _ List.mem_cons_self) ((goes_set _).safe hK) hl hd
  | @failed t' key e ht =>
    rw [ht] at hst hl
    obtain ⟨rfl, rfl, hd⟩ := hst
    obtain ⟨r', hr1, hr2, hr3⟩ := hs.loads i _ _ _ ht
    have e1 := hkey (by rw [ht]; exact id) r' hr1 hr2
    subst e1
    have h4 : EndsLike (P r') (fun a n => seeTree 0 (tall n) (mine (s.own i) s.heap) (some a) = some n) (.thrown e) := hr3
    refine ⟨K, (goes_set s.cache).safe hK, ?_, ?_⟩
    · rw [set_thread]; exact hl
    · rw [set_thread]
      show Fin t' data (P r') _ (.thrown e)
      unfold EndsLike at h4
      cases hP : P r' with
      | error e' =>
        rw [hP] at h4
        cases h4
        exact fin_error
      | ok n =>
        rw [hP] at h4
        obtain ⟨_, e2, _⟩ := h4
        cases e2
  | @lost t' key ht =>
    obtain ⟨r', hr1, hr2, hr3⟩ := hs.loads i _ _ _ ht
    have h4 : EndsLike (P r') (fun a n => seeTree 0 (tall n) (mine (s.own i) s.heap) (some a) = some n) .stuck := hr3
    unfold EndsLike at h4
    cases hP : P r' with
    | error e' => rw [hP] at h4; cases h4
    | ok n =>
      rw [hP] at h4
      obtain ⟨_, e2, _⟩ := h4
      cases e2
  | @loads t' key x ht =>
    have hc := hs.confined i
    rw [ht] at hst hl hc
    refine ⟨K, (goes_step hb (hs.inside i hb) hc).safe hK, ?_, ?_⟩
    · rw [set_thread]; exact hl
    · rw [set_thread]; exact hst
  | @runs args x ht =>
    have hc := hs.confined i
    rw [ht] at hst hl hc
    refine ⟨K, (goes_step hb (hs.inside i hb) hc).safe hK, ?_, ?_⟩
    · rw [set_thread]; exact hl
    · rw [set_thread, set_own]
      exact (Wp.step hst hK.1 (hK.2 i hb) (hs.inside i hb)).1

theorem Due.step {rs : List Request} {s : Pool} {i : Nat} {t : Job} {r : Request} {data : Data} {mv : Move}
    (hs : Settled P rs s) (ha : Allowed s mv) (hc : ¬ CallBy i mv) (hk : ∀ n, P r = .ok n → t.method ≠ .parse → tall n ≤ t.k)
    (hkey : Running (s.thread i) ∨ ∀ r' ∈ rs ++ asks mv, cacheKey r' = cacheKey r → r' = r)
    (h : Due P t r data s i) (hb : Busy s i) : Due P t r data (s.step P mv) i := by
  have hs' : Settled P (rs ++ asks mv) (s.step P mv) := hs.step ha
  cases mv with
  | turn j =>
    rw [show asks (.turn j) = [] from rfl, List.append_nil] at hkey hs'
    by_cases e : j = i
    · subst e
      exact h.turn hs hs' hk hkey hb (turned s j)
    · have hg : ∃ s'', s.turn P j = s'' ∧ (s'' = s ∨ Goes s s'' j) := by
        refine ⟨_, rfl, ?_⟩
        have ht : Turned P s j (s.turn P j) := turned s j
        revert ht
        generalize s.turn P j = s''
        intro ht
        cases ht with
        | idle _ => exact .inl rfl
        | hit _ _ => exact .inr (goes_set s.cache)
        | miss _ => exact .inr (goes_set s.cache)
        | found _ _ => exact .inr (goes_set s.cache)
        | stored _ => exact .inr (goes_set _)
        | failed _ => exact .inr (goes_set s.cache)
        | lost _ => exact .inr (goes_set s.cache)
        | loads ht =>
          have hc := hs.confined j
          rw [ht] at hc
          exact .inr (goes_step (loading_busy ht) (hs.inside j (loading_busy ht)) hc)
        | @runs args x ht =>
          by_cases hx : ∃ o, x = .done o
          · obtain ⟨o, rfl⟩ := hx
            refine .inl ?_
            show ({ s with heap := s.heap } : Pool).set j (.running args (.done o)) (s.own j) = s
            rw [← ht]
            exact set_same
          · have hb' := running_busy ht (fun o e => hx ⟨o, e⟩)
            have hc := hs.confined j
            rw [ht] at hc
            exact .inr (goes_step hb' (hs.inside j hb') hc)
      obtain ⟨s'', e1, e2⟩ := hg
      show Due P t r data (s.turn P j) i
      rw [e1]
      rcases e2 with rfl | hg
      · exact h
      · exact h.other (hg.thread i (Ne.symm e)) (hg.mine hs (Ne.symm e) hb) (fun K hK _ => hg.safe hK)
  | call j t' src r' =>
    have e : i ≠ j := fun e => hc e.symm
    have hg : Goes s (s.step P (.call j t' src r')) j := goes_call
    exact h.other (hg.thread i e) (hg.mine hs e hb) (fun K hK _ => hg.safe hK)
  | evict keep =>
    have hg : Goes s (s.step P (.evict keep)) (i + 1) := goes_evict hs.inside _
    exact h.other rfl rfl (fun K hK _ => hg.safe hK)
  | create o =>
    have hg : Goes s (s.step P (.create o)) (i + 1) := goes_create hs.inside _
    exact h.other rfl (hg.mine hs (by omega) hb) (fun K hK _ => hg.safe hK)
  | change b o =>
    exact h.other rfl (mine_change (ha.2 i hb).1)
      (fun K hK hl => safe_change hK (hK.unled hl (ha.2 i hb).2))

/-- The call is under way. -/
theorem due_call {s : Pool} {i : Nat} {t : Job} {src : Source} {r : Request} {data : Data}
    (ha : Allowed s (.call i t src r)) (hd : Sees t data s.heap.mem) (hk : ∀ n, P r = .ok n → t.method ≠ .parse → tall n ≤ t.k) :
    Due P t r data (s.step P (.call i t src r)) i := by
  have hK : Safe s (reach s.heap.mem t.args) :=
    ⟨reach_le, fun j hj b hb => reach_none (fun c hc => ha.2 j hj b hb c hc)⟩
  have hd' : Sees t data (reach s.heap.mem t.args) := by
    intro hm
    refine see_reach (fun b hb => ?_) (hd hm)
    have e : b = t.data := by simpa [refLink] using hb
    subst e
    unfold Job.args
    revert hm
    cases t.method <;> simp
  refine ⟨reach s.heap.mem t.args, goes_call.safe hK, ?_, ?_⟩
  · intro b o hb
    show ∃ c ∈ handed ((s.set i (t.begin P src r) []).thread i), _
    rw [set_thread]
    have h := reach_leads hb
    cases src <;> exact h
  · show Stage P t r data _ ((s.set i (t.begin P src r) []).thread i) (mine ((s.set i (t.begin P src r) []).own i) s.heap)
    rw [set_thread, set_own, mine_nil]
    cases src with
    | plain => exact plain_fin hd' hk
    | cached => exact ⟨rfl, rfl, hd'⟩

theorem Due.right {s : Pool} {i : Nat} {t : Job} {r : Request} {data : Data} (h : Due P t r data s i) {out : Out Answer}
    (ho : s.outcome i = some out) : Right s.heap data t (P r) out := by
  obtain ⟨K, hK, _, hst⟩ := h
  unfold Pool.outcome at ho
  split at ho
  · next args o ht =>
    cases ho
    rw [ht] at hst
    have hf : Fin t data (P r) (K.or (mine (s.own i) s.heap)) out := hst
    have hf' := hf.mono (Mem.or_le hK.1 mine_le)
    unfold Right
    unfold Fin at hf'
    cases hm : t.method with
    | condition =>
      rw [hm] at hf'
      dsimp only at hf' ⊢
      unfold EndsLike at hf'
      revert hf'
      generalize (P r >>= evalBool t.env data) = q
      cases q with
      | error e => exact id
      | ok b => rintro ⟨x, h1, h2⟩; rw [h1, h2]
    | arithmetic =>
      rw [hm] at hf'
      dsimp only at hf' ⊢
      unfold EndsLike at hf'
      revert hf'
      generalize (P r >>= evalArith t.env data) = q
      cases q with
      | error e => exact id
      | ok v => rintro ⟨x, h1, r', h2, h3⟩; exact ⟨r', by rw [h1, h2], h3⟩
    | parse =>
      rw [hm] at hf'
      dsimp only at hf' ⊢
      unfold EndsLike at hf'
      revert hf'
      generalize P r = q
      cases q with
      | error e => exact id
      | ok n => rintro ⟨x, h1, a, h2, h3⟩; exact ⟨a, by rw [h1, h2], h3⟩
  · cases ho

/-! ### Many moves -/

theorem step_thread {s : Pool} {i : Nat} {mv : Move} (h1 : mv ≠ .turn i) (h2 : ¬ CallBy i mv) :
    (s.step P mv).thread i = s.thread i := by
  cases mv with
  | turn j =>
    have e : i ≠ j := fun e => h1 (by rw [e])
    show (s.turn P j).thread i = s.thread i
    have ht : Turned P s j (s.turn P j) := turned s j
    revert ht
    generalize s.turn P j = s'
    intro ht
    cases ht <;> first | rfl | exact set_thread_ne e
  | call j t src r => exact set_thread_ne (fun e => h2 e.symm)
  | evict _ => rfl
  | create _ => rfl
  | change _ _ => rfl

theorem steps_thread {i : Nat} : ∀ {ms : List Move} {s : Pool}, (∀ mv ∈ ms, mv ≠ .turn i ∧ ¬ CallBy i mv) →
    (ms.foldl (Pool.step P) s).thread i = s.thread i
  | [], _, _ => rfl
  | mv :: ms, s, h => by
    rw [List.foldl_cons, steps_thread (fun x hx => h x (List.mem_cons_of_mem _ hx))]
    exact step_thread (h mv List.mem_cons_self).1 (h mv List.mem_cons_self).2

theorem turn_running {s : Pool} {i : Nat} {args : List Addr} {x : HM Answer} (h : s.thread i = .running args x) :
    (s.turn P i).thread i = .running args (x.step s.heap (s.own i)).1 := by
  unfold Pool.turn
  rw [h]
  exact set_thread

theorem running_stays {s : Pool} {i : Nat} {mv : Move} (h : Running (s.thread i)) (hc : ¬ CallBy i mv) :
    Running ((s.step P mv).thread i) := by
  by_cases e : mv = .turn i
  · subst e
    cases ht : s.thread i with
    | running args x =>
      show Running ((s.turn P i).thread i)
      rw [turn_running ht]
      trivial
    | _ => rw [ht] at h; exact h.elim
  · rw [step_thread e hc]
    exact h

theorem outcome_inv {s : Pool} {i : Nat} {out : Out Answer} (h : s.outcome i = some out) :
    ∃ args, s.thread i = .running args (.done out) := by
  unfold Pool.outcome at h
  split at h
  · next args o ht => cases h; exact ⟨args, ht⟩
  · cases h

theorem outcome_of {s : Pool} {i : Nat} {args : List Addr} {out : Out Answer} (h : s.thread i = .running args (.done out)) :
    s.outcome i = some out := by
  unfold Pool.outcome
  rw [h]

theorem outcome_stays {s : Pool} {i : Nat} {mv : Move} {out : Out Answer} (h : s.outcome i = some out)
    (hc : ¬ CallBy i mv) : (s.step P mv).outcome i = some out := by
  obtain ⟨args, ht⟩ := outcome_inv h
  by_cases e : mv = .turn i
  · subst e
    exact outcome_of (turn_running ht)
  · exact outcome_of ((step_thread e hc).trans ht)

theorem busy_of_due {s : Pool} {i : Nat} {t : Job} {r : Request} {data : Data} (h : Due P t r data s i)
    (hn : s.outcome i = none) : Busy s i := by
  obtain ⟨K, _, _, hst⟩ := h
  unfold Busy
  unfold Pool.outcome at hn
  cases ht : s.thread i with
  | idle => rw [ht] at hst; exact hst.elim
  | seeking _ _ => trivial
  | loading _ _ _ => trivial
  | running args x =>
    cases x with
    | done o => rw [ht] at hn; cases hn
    | _ => trivial

theorem Due.steps {i : Nat} {t : Job} {r : Request} {data : Data} (hk : ∀ n, P r = .ok n → t.method ≠ .parse → tall n ≤ t.k) :
    ∀ {ms : List Move} {s : Pool} {rs : List Request}, Settled P rs s → Orderly P s ms → (∀ mv ∈ ms, ¬ CallBy i mv) →
    (Running (s.thread i) ∨ ∀ r' ∈ rs ++ ms.filterMap cachedCall, cacheKey r' = cacheKey r → r' = r) →
    Due P t r data s i → ∀ out, (ms.foldl (Pool.step P) s).outcome i = some out →
    ∃ ms₀, ms₀ <+: ms ∧ (ms₀.foldl (Pool.step P) s).outcome i = some out ∧
      Right (ms₀.foldl (Pool.step P) s).heap data t (P r) out
  | [], s, rs, _, _, _, _, hd, out, ho => ⟨[], List.prefix_refl _, ho, hd.right ho⟩
  | mv :: ms, s, rs, hs, hor, hc, hkey, hd, out, ho => by
    cases he : s.outcome i with
    | some out' =>
      have hst : ∀ (ns : List Move) (u : Pool), (∀ mv ∈ ns, ¬ CallBy i mv) → u.outcome i = some out' →
          (ns.foldl (Pool.step P) u).outcome i = some out' := by
        intro ns
        induction ns with
        | nil => exact fun _ _ h => h
        | cons m ns ih =>
          exact fun u hcs h => ih _ (fun x hx => hcs x (List.mem_cons_of_mem _ hx))
            (outcome_stays h (hcs m List.mem_cons_self))
      have e := (hst _ s hc he).symm.trans ho
      cases e
      exact ⟨[], List.nil_prefix, he, hd.right he⟩
    | none =>
      have hb := busy_of_due hd he
      have e1 : rs ++ (mv :: ms).filterMap cachedCall = rs ++ asks mv ++ ms.filterMap cachedCall := by
        rw [List.append_assoc]
        congr 1
        unfold asks
        cases hc : cachedCall mv with
        | none => rw [List.filterMap_cons_none hc]; rfl
        | some r => rw [List.filterMap_cons_some hc]; rfl
      rw [e1] at hkey
      have hd' := hd.step hs hor.1 (hc mv List.mem_cons_self) hk
        (hkey.imp_right (fun h r' hr' => h r' (List.mem_append_left _ hr'))) hb
      obtain ⟨ms₀, h1, h2, h3⟩ := Due.steps hk (hs.step hor.1) hor.2 (fun x hx => hc x (List.mem_cons_of_mem _ hx))
        (hkey.imp_left (fun h => running_stays h (hc mv List.mem_cons_self))) hd' out ho
      exact ⟨mv :: ms₀, List.cons_prefix_cons.2 ⟨rfl, h1⟩, h2, h3⟩

theorem call_right (ms : List Move) {data : Data} {r : Request} {i : Nat} {t : Job} {src : Source} {ms' : List Move}
    (hd : Sees t data (Pool.after P ms).heap.mem) (hk : ∀ n, P r = .ok n → t.method ≠ .parse → tall n ≤ t.k)
    (ho : Orderly P .start (ms ++ .call i t src r :: ms')) (hc : ∀ mv ∈ ms', ¬ CallBy i mv)
    (hkey : src = .cached →
      ∀ r' ∈ (ms ++ .call i t src r :: ms').filterMap cachedCall, cacheKey r' = cacheKey r → r' = r)
    {out : Out Answer} (hout : (Pool.after P (ms ++ .call i t src r :: ms')).outcome i = some out) :
    ∃ ms₀, ms₀ <+: ms' ∧ (Pool.after P (ms ++ .call i t src r :: ms₀)).outcome i = some out ∧
      Right (Pool.after P (ms ++ .call i t src r :: ms₀)).heap data t (P r) out := by
  obtain ⟨ho1, ho2⟩ := orderly_append.1 ho
  have hs := (sound_start (P := P)).steps ho1
  have hdue : Due P t r data ((Pool.after P ms).step P (.call i t src r)) i := due_call ho2.1 hd hk
  have hkey' : Running (((Pool.after P ms).step P (.call i t src r)).thread i) ∨
      ∀ r' ∈ ([] ++ ms.filterMap cachedCall ++ asks (.call i t src r)) ++ ms'.filterMap cachedCall,
        cacheKey r' = cacheKey r → r' = r := by
    cases src with
    | plain =>
      refine .inl ?_
      show Running (((Pool.after P ms).set i _ []).thread i)
      rw [set_thread]
      trivial
    | cached =>
      refine .inr (fun r' hr' => hkey rfl r' ?_)
      rw [List.filterMap_append, List.filterMap_cons_some (a := Move.call i t .cached r) (f := cachedCall) (b := r) rfl]
      simpa [asks, cachedCall] using hr'
  have e : ∀ ns, Pool.after P (ms ++ .call i t src r :: ns) =
      ns.foldl (Pool.step P) ((Pool.after P ms).step P (.call i t src r)) := by
    intro ns
    unfold Pool.after
    rw [List.foldl_append]
    rfl
  rw [e] at hout
  obtain ⟨ms₀, h1, h2, h3⟩ := Due.steps hk (hs.step ho2.1) ho2.2 hc hkey' hdue out hout
  exact ⟨ms₀, h1, by rw [e]; exact h2, by rw [e]; exact h3⟩

/-! ### Endless schedules -/

theorem after_succ (σ : Nat → Move) (n : Nat) :
    Pool.after P ((List.range (n + 1)).map σ) = (Pool.after P ((List.range n).map σ)).step P (σ n) := by
  unfold Pool.after
  rw [List.range_succ, List.map_append, List.foldl_append]
  rfl

/-- Until its next turn a thread stays where it is. -/
theorem next_turn {σ : Nat → Move} {i n₀ : Nat} (hc : ∀ n, n₀ ≤ n → ¬ CallBy i (σ n))
    (ht : ∀ n, ∃ m, n ≤ m ∧ σ m = .turn i) (n : Nat) (hn : n₀ ≤ n) :
    ∃ m, n ≤ m ∧ σ m = .turn i ∧
      (Pool.after P ((List.range m).map σ)).thread i = (Pool.after P ((List.range n).map σ)).thread i := by
  obtain ⟨m, hm1, hm2⟩ := ht n
  have key : ∀ d n, n₀ ≤ n → n + d = m → ∃ m', n ≤ m' ∧ σ m' = .turn i ∧
      (Pool.after P ((List.range m').map σ)).thread i = (Pool.after P ((List.range n).map σ)).thread i := by
    intro d
    induction d with
    | zero => intro n _ e; exact ⟨n, Nat.le_refl _, by rw [show n = m by omega]; exact hm2, rfl⟩
    | succ d ih =>
      intro n hn e
      by_cases h : σ n = .turn i
      · exact ⟨n, Nat.le_refl _, h, rfl⟩
      · obtain ⟨m', h1, h2, h3⟩ := ih (n + 1) (by omega) (by omega)
        refine ⟨m', by omega, h2, h3.trans ?_⟩
        rw [after_succ]
        exact step_thread h (hc n hn)
  exact key (m - n) n hn (by omega)

theorem running_ends {σ : Nat → Move} {i n₀ : Nat} (hc : ∀ n, n₀ ≤ n → ¬ CallBy i (σ n))
    (ht : ∀ n, ∃ m, n ≤ m ∧ σ m = .turn i) {args : List Addr} : ∀ (x : HM Answer) (n : Nat), n₀ ≤ n →
    (Pool.after P ((List.range n).map σ)).thread i = .running args x →
    ∃ m, n ≤ m ∧ (Pool.after P ((List.range m).map σ)).outcome i ≠ none := by
  intro x
  have go : ∀ (y : HM Answer) n, n₀ ≤ n → (Pool.after P ((List.range n).map σ)).thread i = .running args y →
      ∃ m, n ≤ m ∧ (Pool.after P ((List.range (m + 1)).map σ)).thread i =
        .running args (y.step (Pool.after P ((List.range m).map σ)).heap ((Pool.after P ((List.range m).map σ)).own i)).1 := by
    intro y n hn h
    obtain ⟨m, h1, h2, h3⟩ := next_turn (P := P) hc ht n hn
    refine ⟨m, h1, ?_⟩
    rw [after_succ, h2]
    exact turn_running (h3.trans h)
  induction x with
  | done o => exact fun n _ h => ⟨n, Nat.le_refl _, by rw [outcome_of h]; simp⟩
  | readThen a k ih =>
    intro n hn h
    obtain ⟨m, h1, h2⟩ := go _ n hn h
    unfold HM.step at h2
    dsimp only at h2
    split at h2
    · obtain ⟨m', h3, h4⟩ := ih _ (m + 1) (by omega) h2
      exact ⟨m', by omega, h4⟩
    · exact ⟨m + 1, by omega, by rw [outcome_of h2]; simp⟩
  | writeThen a o k ih =>
    intro n hn h
    obtain ⟨m, h1, h2⟩ := go _ n hn h
    obtain ⟨m', h3, h4⟩ := ih (m + 1) (by omega) h2
    exact ⟨m', by omega, h4⟩
  | allocThen o k ih =>
    intro n hn h
    obtain ⟨m, h1, h2⟩ := go _ n hn h
    obtain ⟨m', h3, h4⟩ := ih _ (m + 1) (by omega) h2
    exact ⟨m', by omega, h4⟩

theorem loading_ends {σ : Nat → Move} {i n₀ : Nat} (hc : ∀ n, n₀ ≤ n → ¬ CallBy i (σ n))
    (ht : ∀ n, ∃ m, n ≤ m ∧ σ m = .turn i) {t : Job} {key : JStr} : ∀ (x : HM Addr) (n : Nat), n₀ ≤ n →
    (Pool.after P ((List.range n).map σ)).thread i = .loading t key x →
    ∃ m, n ≤ m ∧ (Pool.after P ((List.range m).map σ)).outcome i ≠ none := by
  intro x
  induction x with
  | done o =>
    intro n hn h
    obtain ⟨m, h1, h2, h3⟩ := next_turn (P := P) hc ht n hn
    have hr : ∃ args y, (Pool.after P ((List.range (m + 1)).map σ)).thread i = .running args y := by
      rw [after_succ, h2]
      have h4 := h3.trans h
      revert h4
      generalize Pool.after P ((List.range m).map σ) = u
      intro h4
      show ∃ args y, (u.turn P i).thread i = _
      unfold Pool.turn
      rw [h4]
      cases o with
      | ok a =>
        dsimp only
        split
        · exact ⟨_, _, set_thread⟩
        · exact ⟨_, _, set_thread⟩
      | thrown e => exact ⟨_, _, set_thread⟩
      | stuck => exact ⟨_, _, set_thread⟩
    obtain ⟨args, y, hr⟩ := hr
    obtain ⟨m', h5, h6⟩ := running_ends hc ht y (m + 1) (by omega) hr
    exact ⟨m', by omega, h6⟩
  | readThen a k ih =>
    intro n hn h
    obtain ⟨m, h1, h2, h3⟩ := next_turn (P := P) hc ht n hn
    have h4 := h3.trans h
    have h5 : (Pool.after P ((List.range (m + 1)).map σ)).thread i =
        .loading t key (HM.step (.readThen a k) (Pool.after P ((List.range m).map σ)).heap
          ((Pool.after P ((List.range m).map σ)).own i)).1 := by
      rw [after_succ, h2]
      show ((Pool.after P ((List.range m).map σ)).turn P i).thread i = _
      unfold Pool.turn
      rw [h4]
      exact set_thread
    unfold HM.step at h5
    dsimp only at h5
    split at h5
    · obtain ⟨m', h6, h7⟩ := ih _ (m + 1) (by omega) h5
      exact ⟨m', by omega, h7⟩
    · obtain ⟨m2, g1, g2, g3⟩ := next_turn (P := P) hc ht (m + 1) (by omega)
      have hr : (Pool.after P ((List.range (m2 + 1)).map σ)).thread i = .running t.args (.done .stuck) := by
        rw [after_succ, g2]
        show ((Pool.after P ((List.range m2).map σ)).turn P i).thread i = _
        unfold Pool.turn
        rw [g3.trans h5]
        exact set_thread
      exact ⟨m2 + 1, by omega, by rw [outcome_of hr]; simp⟩
  | writeThen a o k ih =>
    intro n hn h
    obtain ⟨m, h1, h2, h3⟩ := next_turn (P := P) hc ht n hn
    have h5 : (Pool.after P ((List.range (m + 1)).map σ)).thread i = .loading t key k := by
      rw [after_succ, h2]
      show ((Pool.after P ((List.range m).map σ)).turn P i).thread i = _
      unfold Pool.turn
      rw [h3.trans h]
      exact set_thread
    obtain ⟨m', h6, h7⟩ := ih (m + 1) (by omega) h5
    exact ⟨m', by omega, h7⟩
  | allocThen o k ih =>
    intro n hn h
    obtain ⟨m, h1, h2, h3⟩ := next_turn (P := P) hc ht n hn
    have h5 : (Pool.after P ((List.range (m + 1)).map σ)).thread i =
        .loading t key (k (Pool.after P ((List.range m).map σ)).heap.length) := by
      rw [after_succ, h2]
      show ((Pool.after P ((List.range m).map σ)).turn P i).thread i = _
      unfold Pool.turn
      rw [h3.trans h]
      exact set_thread
    obtain ⟨m', h6, h7⟩ := ih _ (m + 1) (by omega) h5
    exact ⟨m', by omega, h7⟩

theorem busy_ends {σ : Nat → Move} {i n₀ : Nat} (hc : ∀ n, n₀ ≤ n → ¬ CallBy i (σ n))
    (ht : ∀ n, ∃ m, n ≤ m ∧ σ m = .turn i) (hb : Busy (Pool.after P ((List.range n₀).map σ)) i) :
    ∃ m, n₀ ≤ m ∧ (Pool.after P ((List.range m).map σ)).outcome i ≠ none := by
  cases h : (Pool.after P ((List.range n₀).map σ)).thread i with
  | idle => unfold Busy at hb; rw [h] at hb; exact hb.elim
  | running args x => exact running_ends hc ht x n₀ (Nat.le_refl _) h
  | loading t key x => exact loading_ends hc ht x n₀ (Nat.le_refl _) h
  | seeking t r =>
    obtain ⟨m, h1, h2, h3⟩ := next_turn (P := P) hc ht n₀ (Nat.le_refl _)
    have h4 := h3.trans h
    cases hf : findAddr (Pool.after P ((List.range m).map σ)).cache (cacheKey r) with
    | some a =>
      have hr : (Pool.after P ((List.range (m + 1)).map σ)).thread i = .running (a :: t.args) (t.on a) := by
        rw [after_succ, h2]
        show ((Pool.after P ((List.range m).map σ)).turn P i).thread i = _
        unfold Pool.turn
        rw [h4]
        dsimp only
        rw [hf]
        exact set_thread
      obtain ⟨m', h5, h6⟩ := running_ends hc ht _ (m + 1) (by omega) hr
      exact ⟨m', by omega, h6⟩
    | none =>
      have hr : (Pool.after P ((List.range (m + 1)).map σ)).thread i = .loading t (cacheKey r) (parseH P r) := by
        rw [after_succ, h2]
        show ((Pool.after P ((List.range m).map σ)).turn P i).thread i = _
        unfold Pool.turn
        rw [h4]
        dsimp only
        rw [hf]
        exact set_thread
      obtain ⟨m', h5, h6⟩ := loading_ends hc ht _ (m + 1) (by omega) hr
      exact ⟨m', by omega, h6⟩

end BoolParser
