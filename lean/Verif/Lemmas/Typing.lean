import Verif.Spec.Typing
import Verif.Lemmas.Reference
/-!
# Well typed expressions succeed
-/

namespace BoolParser
open Spec

theorem has_number {t : Thing} (h : Ty.anyNumber.Has t) : ∃ x, t.number = some x := by
  cases t <;> first | exact ⟨_, rfl⟩ | cases h

theorem has_whole {t : Thing} (h : Ty.whole.Has t) : ∃ n, t.whole = some n := by
  cases t <;> first | exact ⟨_, rfl⟩ | cases h

theorem ofWhole_has (n : ℤ) : Ty.whole.Has (.ofWhole n) := by
  unfold Thing.ofWhole; split <;> trivial

theorem whole_of_not_decimal {t : Thing} (h : Ty.anyNumber.Has t) (hd : t.isDecimal = false) : Ty.whole.Has t := by
  cases t <;> first | trivial | cases h | cases hd

theorem whole_number {t : Thing} (h : Ty.whole.Has t) : Ty.number.Has t := by
  cases t <;> first | trivial | cases h

theorem number_any {t : Thing} (h : Ty.number.Has t) : Ty.anyNumber.Has t := by
  cases t <;> first | trivial | cases h

theorem ring_wholes {o : ArithOp} (ho : RingOp o) {a b : Thing} (ha : Ty.whole.Has a) (hb : Ty.whole.Has b) :
    ∃ t, Operates o a b t ∧ Ty.whole.Has t := by
  obtain ⟨m, hm⟩ := has_whole ha
  obtain ⟨n, hn⟩ := has_whole hb
  rcases ho with rfl | rfl | rfl
  · exact ⟨_, .add_whole hm hn (wrapped64 _), ofWhole_has _⟩
  · by_cases hl : (a.isLong || b.isLong) = true
    · exact ⟨_, .sub_long hm hn hl (wrapped64 _), trivial⟩
    · cases a <;> cases b <;> first
        | exact absurd rfl hl
        | exact ⟨_, .sub_int (wrapped32 _), trivial⟩
        | (cases ha; done)
        | (cases hb; done)
  · exact ⟨_, .mul_whole hm hn (wrapped64 _), ofWhole_has _⟩

theorem ring_numbers {o : ArithOp} (ho : RingOp o) {a b : Thing} (ha : Ty.anyNumber.Has a) (hb : Ty.anyNumber.Has b) :
    ∃ t, Operates o a b t ∧ Ty.number.Has t := by
  by_cases hd : (a.isDecimal || b.isDecimal) = true
  · obtain ⟨x, hx⟩ := has_number ha
    obtain ⟨y, hy⟩ := has_number hb
    rcases ho with rfl | rfl | rfl
    · exact ⟨_, .add hx hy hd, trivial⟩
    · exact ⟨_, .sub hx hy hd, trivial⟩
    · exact ⟨_, .mul hx hy hd, trivial⟩
  · rw [Bool.or_eq_true, not_or, Bool.not_eq_true, Bool.not_eq_true] at hd
    obtain ⟨t, h1, h2⟩ := ring_wholes ho (whole_of_not_decimal ha hd.1) (whole_of_not_decimal hb hd.2)
    exact ⟨t, h1, whole_number h2⟩

theorem ring_not_pow {o : ArithOp} (ho : RingOp o) {p : Prop} (h : o = .exp) : p := by
  rcases ho with rfl | rfl | rfl <;> cases h

theorem lit_has {l : Lit} {τ : Ty} (hv : l.Valid) (h : LitType l τ) : ∃ t, Is l.value t ∧ τ.Has t := by
  cases h with
  | int ds =>
    simp only [Lit.value]
    split
    · exact ⟨_, .int (by unfold InInt32; omega), trivial⟩
    · exact ⟨_, .long (by unfold InInt64; have := hv.2; omega), trivial⟩
  | dec a b => exact ⟨_, .big _, trivial⟩
  | ver c p q ps =>
    obtain ⟨h1, h2, h3, h4⟩ := hv
    exact ⟨_, .version ⟨[c], p :: q :: ps, ⟨by simp, by simp [h1]⟩, by simpa [h2, h3] using h4, rfl, rfl⟩, trivial⟩
  | bool b => exact ⟨_, .truth b, trivial⟩
  | str q s h1 h2 => exact ⟨_, .text h1, h2⟩
  | date x => exact ⟨_, .date (.obj x), trivial⟩
  | datetime x => exact ⟨_, .datetime (.obj x), trivial⟩

theorem boxed_any (n : ℤ) : ∃ t, Is (castWhole n) t ∧ Ty.number.Has t := by
  unfold castWhole
  split
  · exact ⟨_, .int ‹_›, trivial⟩
  · exact ⟨_, .big _, trivial⟩

theorem forall_whole {vs : List Value} (h : ∀ v ∈ vs, ∃ t, Is v t ∧ Ty.whole.Has t) : ∃ ns, Wholes vs ns := by
  induction vs with
  | nil => exact ⟨[], .nil⟩
  | cons v vs ih =>
    obtain ⟨t, h1, h2⟩ := h v (by simp)
    obtain ⟨n, hn⟩ := has_whole h2
    obtain ⟨ns, h3⟩ := ih (fun w hw => h w (by simp [hw]))
    exact ⟨n :: ns, .cons (is_whole h1 hn) h3⟩

theorem call_wholes (env : Env) {f : FuncType} (hf : f = .min ∨ f = .max ∨ f = .sum) {ws : List Value} {ns : List ℤ}
    (h : Wholes ws ns) (h2 : 2 ≤ ws.length) : ∃ n : ℤ, callFn env f (typed ws) = .ok (castWhole n) := by
  rcases hf with rfl | rfl | rfl
  · rw [callFn_numbers env rfl (wholes_numbers h) h2]
    obtain ⟨n, _, h3⟩ := minFn_whole h (wholes_ne h h2)
    exact ⟨_, h3⟩
  · rw [callFn_numbers env rfl (wholes_numbers h) h2]
    obtain ⟨n, _, h3⟩ := maxFn_whole h (wholes_ne h h2)
    exact ⟨_, h3⟩
  · rw [callFn_numbers env rfl (wholes_numbers h) h2]
    refine ⟨longToDouble (wrap64 ns.sum), ?_⟩
    show sumFn (typed ws) = _
    unfold sumFn
    rw [if_neg (by rw [wholes_anyType h]; simp), map_longs h, ok_bind, longSum_eq]
    rfl

theorem length_values {env : Env} {d : Data} {es : List Arith} {vs : List Value}
    (h : Arith.values env d es = .ok vs) : vs.length = es.length :=
  ((values_forall env d es vs).mp h).length_eq.symm

theorem plain_flat {vs : List Value} (h : ∀ v ∈ vs, elements v = [v]) : vs.flatMap elements = vs := by
  induction vs with
  | nil => rfl
  | cons v vs ih =>
    rw [List.flatMap_cons, h v (by simp), ih (fun w hw => h w (by simp [hw]))]; rfl

theorem allTyped {env : Env} {d : Data} {es : List Arith} {τ : Ty}
    (h : ∀ e ∈ es, ∃ v t, e.value env d = .ok v ∧ Is v t ∧ τ.Has t) :
    ∃ vs, Arith.values env d es = .ok vs ∧ ∀ v ∈ vs, ∃ t, Is v t ∧ τ.Has t := by
  induction es with
  | nil => exact ⟨[], rfl, by simp⟩
  | cons e es ih =>
    obtain ⟨v, t, h1, h2, h3⟩ := h e (by simp)
    obtain ⟨vs, h4, h5⟩ := ih (fun e' he => h e' (by simp [he]))
    refine ⟨v :: vs, by rw [Arith.values, h1, ok_bind, h4]; rfl, ?_⟩
    intro w hw
    rcases List.mem_cons.mp hw with rfl | hw
    · exact ⟨t, h2, h3⟩
    · exact h5 w hw

theorem hasType_sound {env : Env} {d : Data} {Γ : Schema} (hd : Conforms d Γ) {e : Arith} {τ : Ty} (h : HasType Γ e τ) :
    ∃ v t, e.value env d = .ok v ∧ Is v t ∧ τ.Has t := by
  induction h with
  | field hf =>
    obtain ⟨ks, h1, v, t, h2, h3, h4⟩ := hd _ _ hf
    exact ⟨v, t, by rw [Arith.value, fieldValue_reaches h1 h2], h3, h4⟩
  | lit hv hl =>
    obtain ⟨t, h1, h2⟩ := lit_has hv hl
    exact ⟨_, t, by rw [Arith.value], h1, h2⟩
  | group h ih => rw [Arith.value]; exact ih
  | whole h ih =>
    obtain ⟨v, t, h1, h2, h3⟩ := ih
    exact ⟨v, t, h1, h2, whole_number h3⟩
  | number h ih =>
    obtain ⟨v, t, h1, h2, h3⟩ := ih
    exact ⟨v, t, h1, h2, number_any h3⟩
  | ring_whole ho hl hr ihl ihr =>
    obtain ⟨v, a, h1, h2, h3⟩ := ihl
    obtain ⟨w, b, h4, h5, h6⟩ := ihr
    obtain ⟨t, h7, h8⟩ := ring_wholes ho h3 h6
    obtain ⟨r, h9, h10⟩ := operates_sound (ring_not_pow ho) h7 h2 h5
    exact ⟨r, t, by rw [Arith.value, h1, ok_bind, h4, ok_bind, h9], h10, h8⟩
  | ring ho hl hr ihl ihr =>
    obtain ⟨v, a, h1, h2, h3⟩ := ihl
    obtain ⟨w, b, h4, h5, h6⟩ := ihr
    obtain ⟨t, h7, h8⟩ := ring_numbers ho h3 h6
    obtain ⟨r, h9, h10⟩ := operates_sound (ring_not_pow ho) h7 h2 h5
    exact ⟨r, t, by rw [Arith.value, h1, ok_bind, h4, ok_bind, h9], h10, h8⟩
  | @mod l ds hl hv hn ihl =>
    obtain ⟨v, a, h1, h2, h3⟩ := ihl
    obtain ⟨m, hm⟩ := has_whole h3
    obtain ⟨b, h5, h6⟩ := lit_has hv (.int ds)
    obtain ⟨n, hb⟩ := has_whole h6
    have hw := is_whole h5 hb
    have hn0 : n ≠ 0 := by
      have : n = digitsValue ds := by
        simp only [Lit.value] at hw
        split at hw <;> cases hw <;> rfl
      rw [this]; exact_mod_cast hn
    have : ∃ t, Operates .mod a b t ∧ Ty.whole.Has t := by
      by_cases hl : (a.isLong || b.isLong) = true
      · exact ⟨_, .mod_long hm hb hl hn0, trivial⟩
      · cases a <;> cases b <;> first
          | exact absurd rfl hl
          | (cases hb; exact ⟨_, .mod_int hn0, trivial⟩)
          | (cases h3; done)
          | (cases h6; done)
    obtain ⟨t, h7, h8⟩ := this
    obtain ⟨r, h9, h10⟩ := operates_sound (fun e => by cases e) h7 h2 h5
    exact ⟨r, t, by rw [Arith.value, h1, ok_bind, Arith.value, ok_bind, h9], h10, h8⟩
  | neg_whole h ih =>
    obtain ⟨v, a, h1, h2, h3⟩ := ih
    have : ∃ t, Negates a t ∧ Ty.whole.Has t := by
      cases a with
      | int n => exact ⟨_, .int (wrapped32 _), trivial⟩
      | long n => exact ⟨_, .long (wrapped64 _), trivial⟩
      | _ => cases h3
    obtain ⟨t, h7, h8⟩ := this
    obtain ⟨r, h9, h10⟩ := negates_sound h7 h2
    exact ⟨r, t, by rw [Arith.value, h1, ok_bind, h9], h10, h8⟩
  | neg h ih =>
    obtain ⟨v, a, h1, h2, h3⟩ := ih
    have : ∃ t, Negates a t ∧ Ty.number.Has t := by
      cases a with
      | int n => exact ⟨_, .int (wrapped32 _), trivial⟩
      | long n => exact ⟨_, .long (wrapped64 _), trivial⟩
      | big x => exact ⟨_, .big _, trivial⟩
      | _ => cases h3
    obtain ⟨t, h7, h8⟩ := this
    obtain ⟨r, h9, h10⟩ := negates_sound h7 h2
    exact ⟨r, t, by rw [Arith.value, h1, ok_bind, h9], h10, h8⟩
  | len h ih =>
    obtain ⟨v, a, h1, h2, h3⟩ := ih
    cases a with
    | text s =>
      obtain ⟨r, h4, h5⟩ := applies_sound (env := env) (.len_text h3) (.cons h2 .nil)
      refine ⟨r, _, ?_, h5, trivial⟩
      rw [Arith.value, Arith.values, h1, ok_bind, Arith.values, ok_bind]
      show callFn env .len (flattenItems [v]) = _
      rw [flattenItems_elements, List.flatMap_cons, is_plain h2]
      exact h4
    | _ => cases h3
  | @call f args hf h2 ha ih =>
    obtain ⟨vs, h1, h3⟩ := allTyped ih
    obtain ⟨ns, hns⟩ := forall_whole h3
    have hl := length_values h1
    obtain ⟨n, hn⟩ := call_wholes env hf hns (by omega)
    obtain ⟨t, h4, h5⟩ := boxed_any n
    refine ⟨_, t, ?_, h4, h5⟩
    rw [Arith.value, h1, ok_bind, flattenItems_elements, plain_flat]
    · exact hn
    intro v hv
    obtain ⟨t, h6, _⟩ := h3 v hv
    exact is_plain h6
theorem types_compare {o : CmpOp} {τ : Ty} (h : τ.Compares o) {a b : Thing} (ha : τ.Has a) (hb : τ.Has b) :
    ∃ x, Compares o a b x := by
  classical
  have num : Ty.anyNumber.Has a → Ty.anyNumber.Has b → ∃ x, Compares o a b x := by
    intro h1 h2
    obtain ⟨x, hx⟩ := has_number h1
    obtain ⟨y, hy⟩ := has_number h2
    exact ⟨_, .numbers hx hy⟩
  cases τ with
  | whole => exact num (number_any (whole_number ha)) (number_any (whole_number hb))
  | number => exact num (number_any ha) (number_any hb)
  | anyNumber => exact num ha hb
  | text => cases a <;> cases b <;> first | exact ⟨_, .texts _ _⟩ | (cases ha; done) | (cases hb; done)
  | truth =>
    cases a <;> cases b <;> first | (cases ha; done) | (cases hb; done) | skip
    rcases h with rfl | rfl
    · exact ⟨_, .same _ _⟩
    · exact ⟨_, .differ _ _⟩
  | date => cases a <;> cases b <;> first | exact ⟨_, .dates _ _⟩ | (cases ha; done) | (cases hb; done)
  | datetime => cases a <;> cases b <;> first | exact ⟨_, .datetimes _ _⟩ | (cases ha; done) | (cases hb; done)
  | version =>
    cases a <;> cases b <;> first | (cases ha; done) | (cases hb; done) | skip
    rename_i v w
    exact ⟨decide (VersionRel o v w), .versions (by simp)⟩

theorem equality (τ : Ty) : τ.Compares .eq := by cases τ <;> first | trivial | exact .inl rfl

theorem any_ok {f : Value → Result Bool} {ws : List Value} (h : ∀ w ∈ ws, ∃ b, f w = .ok b) :
    ∃ b, anyM' f ws = .ok b := by
  induction ws with
  | nil => exact ⟨false, rfl⟩
  | cons w ws ih =>
    obtain ⟨b, hb⟩ := h w (by simp)
    rw [anyM', hb, ok_bind]
    cases b
    · exact ih (fun w' hw => h w' (by simp [hw]))
    · exact ⟨true, rfl⟩

theorem typed_texts {ws : List Value} (h : ∀ w ∈ ws, ∃ t, Is w t ∧ Ty.text.Has t) :
    ∃ ss : List JStr, ws = ss.map .str ∧ ∀ s ∈ ss, Ordinary s := by
  induction ws with
  | nil => exact ⟨[], rfl, by simp⟩
  | cons w ws ih =>
    obtain ⟨t, h1, h2⟩ := h w (by simp)
    obtain ⟨ss, rfl, h3⟩ := ih (fun w' hw => h w' (by simp [hw]))
    cases t with
    | text s =>
      obtain ⟨rfl, h4⟩ := is_text h1
      exact ⟨s :: ss, rfl, by simpa [h4] using h3⟩
    | _ => cases h2

theorem null_ok {d : Data} {f : JStr} {ks : List JStr} (hk : Names f ks) {τ : Ty} (h : PresentAt d ks τ) (env : Env)
    (df : Option JStr) (eq : Bool) : ∃ b, (Cond.isNull f eq).meaning env d df = .ok b := by
  obtain ⟨v, t, h2, h3, _⟩ := h
  rw [Cond.meaning, (lookup_some hk d _).mpr h2, ok_bind,
    nullCheck_some (is_ne_null h3) (notNaN_valid (is_ne_null h3) (is_notNaN h3))]
  cases eq <;> exact ⟨_, rfl⟩

theorem wellTyped_sound {env : Env} {d : Data} {Γ : Schema} (hd : Conforms d Γ) {df : Option JStr}
    {c : Cond} (h : WellTyped Γ df c) (hv : c.Valid) : ∃ b, c.meaning env d df = .ok b := by
  induction h with
  | cmp hl hr hc =>
    obtain ⟨v, a, h1, h2, h3⟩ := hasType_sound (env := env) hd hl
    obtain ⟨w, b, h4, h5, h6⟩ := hasType_sound (env := env) hd hr
    obtain ⟨x, h7⟩ := types_compare hc h3 h6
    exact ⟨x, by rw [Cond.meaning, h1, ok_bind, rightValue_ok h4, ok_bind, compares_sound h7 h2 h5]⟩
  | cmpD hdf hl hr hc =>
    obtain ⟨v, a, h1, h2, h3⟩ := hasType_sound (env := env) hd hl
    obtain ⟨w, b, h4, h5, h6⟩ := hasType_sound (env := env) hd hr
    obtain ⟨x, h7⟩ := types_compare hc h3 h6
    subst hdf
    rw [Arith.value] at h1
    exact ⟨x, by rw [Cond.meaning, Cond.defaultValue, h1, ok_bind, rightValue_ok h4, ok_bind,
      compares_sound h7 h2 h5]⟩
  | @isNull f eq τ hf =>
    rcases hf with hf | hf
    · obtain ⟨ks, hk, h1⟩ := hd _ _ hf
      exact null_ok hk h1 env df eq
    · obtain ⟨ks, hk, h1 | h1⟩ := hd _ _ hf
      · rw [Cond.meaning, (lookup_none hk d).mpr h1, ok_bind]
        cases eq
        · exact ⟨false, by krfl⟩
        · exact ⟨true, by krfl⟩
      · exact null_ok hk h1 env df eq
  | range hf =>
    obtain ⟨v, a, h1, h2, h3⟩ := hasType_sound (env := env) hd hf
    obtain ⟨x, hx⟩ := has_number h3
    obtain ⟨_, vlo, vhi, nlo, nhi⟩ := hv
    rw [Arith.value] at h1
    rw [Cond.meaning, h1, ok_bind, compare_num .ge (is_num h2 hx) (numLit vlo nlo), ok_bind,
      compare_num .le (is_num h2 hx) (numLit vhi nhi), ok_bind]
    exact ⟨_, rfl⟩
  | @isIn f negated items τ hf hi =>
    obtain ⟨v, a, h1, h2, h3⟩ := hasType_sound (env := env) hd hf
    obtain ⟨vs, h4, h5⟩ := allTyped (fun e he => hasType_sound (env := env) hd (hi e he))
    have hne : items ≠ [] := hv.2.1
    have hl := length_values h4
    have hfl : vs.flatMap elements = vs := plain_flat (fun v hv => by
      obtain ⟨t, h6, _⟩ := h5 v hv; exact is_plain h6)
    rw [Arith.value] at h1
    rw [Cond.meaning, h1, ok_bind, h4, ok_bind, member_eq, hfl]
    · obtain ⟨b, hb⟩ := any_ok (f := fun w => Cond.compare .eq v w) (ws := vs) (fun w hw => by
        obtain ⟨t, h6, h7⟩ := h5 w hw
        obtain ⟨x, h8⟩ := types_compare (equality τ) h3 h7
        exact ⟨x, compares_sound h8 h2 h6⟩)
      rw [hb, ok_bind]
      exact ⟨_, rfl⟩
    · rw [hfl]
      intro e
      rw [e] at hl
      exact hne (List.length_eq_zero_iff.mp hl.symm)
  | @contains f o items hf hi =>
    obtain ⟨ks, hk, ws, h1, h2⟩ := hd _ _ hf
    obtain ⟨vs, h4, h5⟩ := allTyped (fun e he => hasType_sound (env := env) hd (hi e he))
    have hfl : vs.flatMap elements = vs := plain_flat (fun v hv => by
      obtain ⟨t, h6, _⟩ := h5 v hv; exact is_plain h6)
    obtain ⟨ss, rfl, hs⟩ := typed_texts h5
    obtain ⟨ts, rfl, hts⟩ := typed_texts h2
    have ht : ∀ x ∈ (ss.map Value.str).flatMap elements, ∀ y ∈ (ss.map Value.str).flatMap elements,
        getDataType x = getDataType y := by
      rw [hfl]
      simp only [List.mem_map]
      rintro _ ⟨s, h6, rfl⟩ _ ⟨s', h7, rfl⟩
      rw [ordinary_type (hs s h6), ordinary_type (hs s' h7)]
    have hw : ∀ w ∈ (ss.map Value.str).flatMap elements, w ≠ .null := by rw [hfl]; simp
    rw [Cond.meaning, fieldValue_reaches hk h1, ok_bind, h4, ok_bind]
    cases o with
    | containsAll => rw [containsTest_all ht (by simp) hw]; exact ⟨_, rfl⟩
    | containsAny => rw [containsTest_any ht (by simp) hw]; exact ⟨_, rfl⟩
  | notField hf =>
    obtain ⟨v, a, h1, h2, h3⟩ := hasType_sound (env := env) hd (.field hf)
    cases a with
    | truth b =>
      rw [Arith.value] at h1
      rw [Cond.meaning, h1, is_truth h2]
      exact ⟨_, rfl⟩
    | _ => cases h3
  | not _ ih =>
    obtain ⟨b, hb⟩ := ih hv
    exact ⟨!b, by rw [Cond.meaning, hb]; rfl⟩
  | group _ ih =>
    obtain ⟨b, hb⟩ := ih hv
    exact ⟨b, by rw [Cond.meaning, hb]⟩
  | @conn conj l r _ _ ih1 ih2 =>
    obtain ⟨b, hb⟩ := ih1 hv.1
    obtain ⟨b', hb'⟩ := ih2 hv.2
    rw [Cond.meaning, hb, ok_bind, hb']
    cases conj <;> cases b <;> exact ⟨_, rfl⟩

end BoolParser
