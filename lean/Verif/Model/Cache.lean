import Verif.Model.Api
/-!
# The caching parser (`parser/antlr/CachedBoolParser.java`)

The Caffeine cache is a map that may lose entries at any time (size eviction runs asynchronously).
-/

namespace BoolParser

/-- A parse request: expression and default field (`none` = the one-argument overload or an explicit
null). -/
structure Request where
  expr : JStr
  df : Option JStr
deriving DecidableEq

/-- `expression + "_" + Optional.ofNullable(defaultField).orElse("")`
(`CachedBoolParser.java:29`). -/
def cacheKey (r : Request) : JStr := r.expr ++ ['_'] ++ r.df.getD []

/-- The cache contents. -/
abbrev Cache := List (JStr × Node)

/-- `cache.getIfPresent`. -/
def Cache.find (c : Cache) (k : JStr) : Option Node :=
  match c with
  | [] => none
  | (k', n) :: es => if k' = k then some n else Cache.find es k

/-- `CachedBoolParser.parseExpression` (`CachedBoolParser.java:18-31`) over an arbitrary uncached parser
`P` (`super.parse`, `parser/antlr/BoolParser.java:33-43`): `cache.get(key, loader)` returns the cached
node, otherwise runs the loader; when the loader throws, nothing is stored. Caffeine runs the loader of
a key atomically, so one request is one step. -/
def cachedParse (P : Request → Result Node) (c : Cache) (r : Request) : Result Node × Cache :=
  match c.find (cacheKey r) with
  | some n => (.ok n, c)
  | none =>
    match P r with
    | .ok n => (.ok n, (cacheKey r, n) :: c)
    | .error e => (.error e, c)

/-- What can happen to a caching parser: a request, or the eviction of the entries that fail a test. -/
inductive CacheOp where
  | request (r : Request)
  | evict (keep : JStr → Bool)

/-- One step. -/
def cacheStep (P : Request → Result Node) (c : Cache) : CacheOp → Cache
  | .request r => (cachedParse P c r).2
  | .evict keep => c.filter (fun e => keep e.1)

/-- The cache after a history, starting empty (`CachedBoolParser.java:13-16`). -/
def cacheAfter (P : Request → Result Node) (ops : List CacheOp) : Cache := ops.foldl (cacheStep P) []

/-- `P` is the library's uncached parser: it does what the model says wherever the model says anything
(on input outside the grammar it may do whatever ANTLR's recovery leads to). -/
def IsBoolParser (P : Request → Result Node) : Prop :=
  ∀ r, match parseExpression r.expr r.df with
    | .success n => P r = .ok n
    | .failure e => P r = .error e
    | .syntaxError => True

end BoolParser
