import Verif.Lemmas.Sharing
import Verif.Util.KRfl
/-!
# C88, C89: objects, their identity and their changes
-/

namespace BoolParser
open HM Spec

/-! ## C88: evaluation changes nothing the caller can see -/

/-- Whatever objects there are and however they refer to each other (shared, cyclic, malformed), and
however the evaluation ends, every object that existed before is unchanged; there may be new ones. -/
theorem C88_untouched (env : Env) (m k : Nat) (d : Addr) (a : Option Addr) (H : Heap) :
    (∃ extra, (evalBoolH env m d k a H).2 = H ++ extra) ∧ ∃ extra, (evalArithH env m d k a H).2 = H ++ extra :=
  ⟨Fr.prefix_of (fun i => evalBoolH_fr (S := i) k a) H, Fr.prefix_of (fun i => evalArithH_fr (S := i) k a) H⟩

/-- The result depends only on the values seen at the data and on the tree seen at the node, not on which
objects they are made of or share: it is the result of the model without objects. -/
theorem C88_condition (env : Env) {H : Heap} {d a : Addr} {data : Data} {n : Node}
    (hd : Shows H (.ptr d) (.map data)) (hn : ShowsTree H a n) :
    ∃ K, ∀ m k, K ≤ m → K ≤ k → ∃ extra, evalBoolH env m d k (some a) H = (ending (evalBool env data n), H ++ extra) :=
  evalBoolH_shows env hd hn

/-- The same for arithmetic; a result that is an object is one the caller had before. -/
theorem C88_arithmetic (env : Env) {H : Heap} {d a : Addr} {data : Data} {n : Node}
    (hd : Shows H (.ptr d) (.map data)) (hn : ShowsTree H a n) :
    ∃ K, ∀ m k, K ≤ m → K ≤ k → ∃ o extra, evalArithH env m d k (some a) H = (o, H ++ extra) ∧
      match evalArith env data n with
      | .ok v => ∃ r, o = .ok r ∧ Shows H r v
      | .error e => o = .thrown e :=
  evalArithH_shows env hd hn

/-- A field evaluates to the very object that is in the data, not to a copy. -/
theorem C88_field (env : Env) (m k : Nat) {H : Heap} {d a : Addr} {es : List (JStr × Ref)} {f : JStr} {b : Addr}
    (hd : H[d]? = some (.map es)) (hn : H[a]? = some (.node (.field (some f)))) (hf : '.' ∉ f)
    (hb : refGet es f = some (.ptr b)) : evalArithH env m d (k + 1) (some a) H = (.ok (.ptr b), H) := by
  rw [evalArithH, HM_bind_ok (a := .field (some f)) (H' := H) (by rw [readNode, read_bind hn]; rfl)]
  show requireFieldH d (some f) H = _
  rw [requireFieldH, lookupFieldH, splitKey, if_neg hf, walkH]
  rw [HM_bind_ok (a := some (.ptr b)) (H' := H) (by rw [read_bind hd]; dsimp only; rw [hb]; rfl)]
  rfl

/-- Other evaluations before it, of any expressions over any data, make no difference. -/
theorem C88_order (env : Env) {H : Heap} {d a : Addr} {data : Data} {n : Node}
    (hd : Shows H (.ptr d) (.map data)) (hn : ShowsTree H a n) :
    ∃ K, ∀ m k, K ≤ m → K ≤ k → ∀ (env' : Env) (m' k' : Nat) (d' : Addr) (a' : Option Addr),
      (evalBoolH env m d k (some a) (evalBoolH env' m' d' k' a' H).2).1 = (evalBoolH env m d k (some a) H).1 ∧
      (evalBoolH env m d k (some a) (evalArithH env' m' d' k' a' H).2).1 = (evalBoolH env m d k (some a) H).1 := by
  obtain ⟨m1, h1⟩ := hd
  obtain ⟨m2, k2, h2⟩ := hn
  refine ⟨max (max m1 m2) k2, fun m k hm hk env' m' k' d' a' => ?_⟩
  have g1 := see_le (show m1 ≤ m by omega) h1
  have g2 := seeTree_le (show m2 ≤ m by omega) (show k2 ≤ k by omega) h2
  have key : ∀ G, H <+: G → (evalBoolH env m d k (some a) G).1 = (evalBoolH env m d k (some a) H).1 := by
    intro G hG
    have e1 := (evalBoolH_gives (env := env) g1 k g2).runs (mem_prefix hG)
    have e2 := (evalBoolH_gives (env := env) g1 k g2).runs (mem_prefix (List.prefix_refl H))
    cases hr : evalBool env data n with
    | ok b =>
      rw [hr] at e1 e2
      obtain ⟨_, q1, rfl⟩ := e1
      obtain ⟨_, q2, rfl⟩ := e2
      rw [q1, q2]
    | error e =>
      rw [hr] at e1 e2
      rw [e1, e2]
  obtain ⟨⟨x, hx⟩, ⟨y, hy⟩⟩ := C88_untouched env' m' k' d' a' H
  exact ⟨key _ (by rw [hx]; exact List.prefix_append _ _), key _ (by rw [hy]; exact List.prefix_append _ _)⟩

/-- `median(a)` over the list `[3, 1, 2]`: the list is sorted in a copy. -/
def medianHeap : Heap :=
  [.map [(j!"a", .ptr 1)], .list [.imm (.int 3), .imm (.int 1), .imm (.int 2)], .nodes [some 3],
    .node (.field (some j!"a")), .node (.func .median 2)]

example (env : Env) : (evalArithH env 2 0 3 (some 4) medianHeap).1 = .ok (.imm (.int 2)) := by krfl
example (env : Env) : ((evalArithH env 2 0 3 (some 4) medianHeap).2)[1]? =
    some (.list [.imm (.int 3), .imm (.int 1), .imm (.int 2)]) := by krfl
example : Shows medianHeap (.ptr 0) (.map [(j!"a", .list [.int 3, .int 1, .int 2])]) := ⟨2, by krfl⟩
example : ShowsTree medianHeap 4 (.func .median [.field (some j!"a")]) := ⟨0, 2, by krfl⟩

/-! ## C89: whose node is it? -/

variable {P : Request → Result Node}

/-- The plain parser returns a tree of new objects: nothing that existed before can be reached from it. -/
theorem C89_fresh {r : Request} {n : Node} (h : P r = .ok n) (s : Prog) :
    ∃ a extra, s.node P .plain r = (.ok a, ⟨s.heap ++ extra, s.cache⟩) ∧ ShowsTree (s.heap ++ extra) a n ∧
      ∀ b, LeadsTo (Heap.mem (s.heap ++ extra)) a b → s.heap.length ≤ b := by
  obtain ⟨a, extra, e, h1, h2, h3⟩ := parseH_ok h s.heap
  refine ⟨a, extra, ?_, h3, fun b hb => reaches_new h2 hb h1⟩
  unfold Prog.node
  dsimp only
  rw [e]

/-- So with the plain parser an evaluation gives what the text and the data say, whatever the program did
before to the nodes it got. -/
theorem C89_plain (env : Env) (acts : List Act) (r : Request) {d : Addr} {data : Data}
    (hd : Shows (Prog.after P acts).heap (.ptr d) (.map data)) :
    ∃ K, ∀ m k, K ≤ m → K ≤ k →
      ((Prog.after P acts).evaluate P env m k .plain r d).1 = ending (P r >>= evalBool env data) := by
  cases hP : P r with
  | error e =>
    refine ⟨0, fun m k _ _ => ?_⟩
    unfold Prog.evaluate Prog.node
    dsimp only
    rw [parseH_error hP]
    rfl
  | ok n =>
    obtain ⟨a, extra, e, ht, _⟩ := C89_fresh hP (Prog.after P acts)
    obtain ⟨K, hK⟩ := evalBoolH_shows env (shows_mono (List.prefix_append _ extra) hd) ht
    refine ⟨K, fun m k hm hk => ?_⟩
    obtain ⟨x, hx⟩ := hK m k hm hk
    unfold Prog.evaluate
    rw [e]
    dsimp only
    rw [hx]
    rfl

/-- With the caching parser the same holds as long as nobody changes an object that belongs to a tree
still in the cache (and no other request had the same key, see C45). -/
theorem C89_cached (env : Env) (acts : List Act) (hc : Careful P ⟨[], []⟩ acts) (r : Request)
    (hkey : ∀ r' ∈ acts.filterMap cachedRequest, cacheKey r' = cacheKey r → r' = r) {d : Addr} {data : Data}
    (hd : Shows (Prog.after P acts).heap (.ptr d) (.map data)) :
    ∃ K, ∀ m k, K ≤ m → K ≤ k →
      ((Prog.after P acts).evaluate P env m k .cached r d).1 = ending (P r >>= evalBool env data) := by
  rcases node_cached (clean_after acts hc) r with ⟨a, t, r', n, e, h1, h2, h3, h4, h5, _⟩ | ⟨e, he, hP⟩
  · have hr : r' = r := by
      rcases List.mem_cons.1 h1 with rfl | h1
      · rfl
      · exact hkey r' h1 h2
    subst hr
    obtain ⟨K, hK⟩ := evalBoolH_shows env (shows_mono h5 hd) h4
    refine ⟨K, fun m k hm hk => ?_⟩
    obtain ⟨x, hx⟩ := hK m k hm hk
    unfold Prog.evaluate
    rw [e, h3]
    dsimp only
    rw [hx]
    rfl
  · refine ⟨0, fun m k _ _ => ?_⟩
    unfold Prog.evaluate
    rw [he, hP]
    rfl

/-- The caching parser hands out the object it keeps: an evaluation follows whatever tree is seen there
now. -/
theorem C89_shared (env : Env) (s : Prog) (r : Request) {a d : Addr} {n : Node} {data : Data}
    (ha : findAddr s.cache (cacheKey r) = some a) (hn : ShowsTree s.heap a n)
    (hd : Shows s.heap (.ptr d) (.map data)) :
    s.node P .cached r = (.ok a, s) ∧ ∃ K, ∀ m k, K ≤ m → K ≤ k →
      (s.evaluate P env m k .cached r d).1 = ending (evalBool env data n) := by
  have hs : s.node P .cached r = (.ok a, s) := by
    unfold Prog.node
    dsimp only
    rw [ha]
  obtain ⟨K, hK⟩ := evalBoolH_shows env hd hn
  refine ⟨hs, K, fun m k hm hk => ?_⟩
  obtain ⟨x, hx⟩ := hK m k hm hk
  unfold Prog.evaluate
  rw [hs]
  dsimp only
  rw [hx]

/-- `a = 1 AND b = 2`. -/
def pairRequest : Request := ⟨j!"a = 1 AND b = 2", none⟩

/-- Its tree. -/
def pairTree : Node :=
  .and_ (.cmp (.field (some j!"a")) (.unary .integer (.int 1)) .eq .integer)
    (.cmp (.field (some j!"b")) (.unary .integer (.int 2)) .eq .integer)

/-- A program that parses the text with the caching parser and calls `setOperator(OR)` on the node. -/
def meddling : List Act :=
  [.create (.map [(j!"a", .imm (.int 1)), (j!"b", .imm (.int 5))]), .parse .cached pairRequest,
    .change 7 (.node (.bool .or (some 3) (some 6)))]

/-- From then on every evaluation of the text through the caching parser, by whoever, is wrong. -/
theorem C89_meddled (hP : IsBoolParser P) (env : Env) : ∃ d K, ∀ m k, K ≤ m → K ≤ k →
    ((Prog.after P meddling).evaluate P env m k .cached pairRequest d).1 = .ok true ∧
    ((Prog.after P meddling).evaluate P env m k .plain pairRequest d).1 = .ok false := by
  have hp : P pairRequest = .ok pairTree := by
    have h := hP pairRequest
    have e : parseExpression pairRequest.expr pairRequest.df = .success pairTree := by krfl
    rw [e] at h
    exact h
  have hs : Prog.after P meddling = ⟨[.map [(j!"a", .imm (.int 1)), (j!"b", .imm (.int 5))],
      .node (.field (some j!"a")), .node (.unary .integer (.imm (.int 1))),
      .node (.cmp (some 1) (some 2) .eq .integer),
      .node (.field (some j!"b")), .node (.unary .integer (.imm (.int 2))),
      .node (.cmp (some 4) (some 5) .eq .integer), .node (.bool .or (some 3) (some 6))],
      [(cacheKey pairRequest, 7)]⟩ := by
    simp only [Prog.after, meddling, List.foldl, Prog.step, Prog.node, findAddr, parseH, HM_bind, HM.lift, hp]
    rfl
  have hd : Shows (Prog.after P meddling).heap (.ptr 0) (.map [(j!"a", .int 1), (j!"b", .int 5)]) := by
    rw [hs]; exact ⟨1, by krfl⟩
  obtain ⟨_, K1, h1⟩ := C89_shared (P := P) env (Prog.after P meddling) pairRequest (a := 7)
    (n := .or_ (.cmp (.field (some j!"a")) (.unary .integer (.int 1)) .eq .integer)
      (.cmp (.field (some j!"b")) (.unary .integer (.int 2)) .eq .integer))
    (by rw [hs]; simp [findAddr]) (by rw [hs]; exact ⟨0, 3, by krfl⟩) hd
  obtain ⟨K2, h2⟩ := C89_plain env meddling pairRequest hd
  refine ⟨0, max K1 K2, fun m k hm hk => ?_⟩
  rw [h1 m k (by omega) (by omega), h2 m k (by omega) (by omega), hp]
  constructor
  · krfl
  · krfl

/-- A careful program: between two evaluations of the text it changes its data. -/
def carefulActs : List Act :=
  [.create (.map [(j!"a", .imm (.int 1)), (j!"b", .imm (.int 5))]), .parse .cached pairRequest,
    .change 0 (.map [(j!"a", .imm (.int 1)), (j!"b", .imm (.int 2))])]

/-- The hypotheses of `C89_cached` are met: the later evaluation sees the changed data. -/
example (hP : IsBoolParser P) (env : Env) : Careful P ⟨[], []⟩ carefulActs ∧
    (∀ r' ∈ carefulActs.filterMap cachedRequest, cacheKey r' = cacheKey pairRequest → r' = pairRequest) ∧
    ∃ K, ∀ m k, K ≤ m → K ≤ k →
      ((Prog.after P carefulActs).evaluate P env m k .cached pairRequest 0).1 = .ok true := by
  have hp : P pairRequest = .ok pairTree := by
    have h := hP pairRequest
    have e : parseExpression pairRequest.expr pairRequest.df = .success pairTree := by krfl
    rw [e] at h
    exact h
  let H0 : Heap := [.map [(j!"a", .imm (.int 1)), (j!"b", .imm (.int 5))]]
  obtain ⟨a, extra, e1, h1, h2, h3⟩ := parseH_ok hp H0
  have e2 : Prog.step P ⟨H0, []⟩ (.parse .cached pairRequest) = ⟨H0 ++ extra, [(cacheKey pairRequest, a)]⟩ := by
    simp only [Prog.step, Prog.node, findAddr]
    rw [e1]
  have hc : Careful P ⟨[], []⟩ carefulActs := by
    refine ⟨trivial, trivial, ?_, trivial⟩
    show LeavesCached (Prog.step P ⟨H0, []⟩ (.parse .cached pairRequest)) _
    rw [e2]
    intro key b hb hr
    have hb : b = a := by simpa using (List.mem_singleton.1 hb |> congrArg Prod.snd)
    subst hb
    have := reaches_new h2 hr h1
    simp [H0] at this
  have hk : ∀ r' ∈ carefulActs.filterMap cachedRequest, cacheKey r' = cacheKey pairRequest → r' = pairRequest := by
    intro r' hr' _
    simpa [carefulActs, cachedRequest, eq_comm] using hr'
  refine ⟨hc, hk, ?_⟩
  have hd : Shows (Prog.after P carefulActs).heap (.ptr 0) (.map [(j!"a", .int 1), (j!"b", .int 2)]) := by
    have e3 : (Prog.after P carefulActs).heap =
        [.map [(j!"a", .imm (.int 1)), (j!"b", .imm (.int 2))]] ++ extra := by
      show (Prog.step P (Prog.step P ⟨H0, []⟩ (.parse .cached pairRequest))
        (.change 0 (.map [(j!"a", .imm (.int 1)), (j!"b", .imm (.int 2))]))).heap = _
      rw [e2]
      rfl
    rw [e3]
    exact shows_mono (List.prefix_append _ _) ⟨1, by krfl⟩
  obtain ⟨K, h⟩ := C89_cached env carefulActs hc pairRequest hk hd
  refine ⟨K, fun m k hm hk => ?_⟩
  rw [h m k hm hk, hp]
  krfl

end BoolParser
