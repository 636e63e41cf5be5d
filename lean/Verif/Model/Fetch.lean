import Verif.Model.Cache
import Verif.Model.Jws
/-!
# Obtaining statements over HTTP (`trustresolver.go:504-608`, `internal/http/http.go`)

Lookups by any number of goroutines share the cache; a request may be answered long after it was sent, and answers are arbitrary.
-/

namespace Oidfed

/-- An HTTP answer as resty presents it (after redirects and retries): status, body, and the `error` member of the body if the body could be decoded as an error object, else `""`. -/
structure Answer where
  status : Nat
  err : String
  body : String
deriving DecidableEq, Repr

/-- `http.Get` (internal/http/http.go:46-56) followed by the use of its results (trustresolver.go:577-584, 600-607): the body that is parsed, `none` for an error.
`none` as argument is a failed request. resty fills the error object for status codes above 399. -/
def httpBody : Option Answer → Option String
  | none => none
  | some a => if 400 ≤ a.status ∧ a.err ≠ "" then none else some a.body

/-- `ParseEntityStatement` (entitystatement.go:244-261); `P` is `jws.Parse`, `D` decodes the payload and keeps the message. -/
def parseStmt (P : String → Option Jws) (D : Jws → Option Stmt) (body : String) : Option Stmt :=
  match P body with
  | none => none
  | some j => if verifyType j "entity-statement+jwt" then D j else none

/-- `strings.TrimSuffix(s, "/")`, on characters. -/
def trimSlash (s : List Char) : List Char := if s.getLast? = some '/' then s.dropLast else s

/-- The URL of an entity configuration (trustresolver.go:575; oidfedconst/constants.go:4). -/
def configURL (id : ID) : String := String.ofList (trimSlash id.toList ++ "/.well-known/openid-federation".toList)

/-- A GET request: URL and the `sub` parameter. -/
structure Request where
  url : String
  sub : Option ID
deriving DecidableEq, Repr

/-- A lookup with its obtainer function: `GetEntityConfiguration` (trustresolver.go:526-532) or `FetchEntityStatement` (trustresolver.go:588-594). -/
inductive Lookup where
  | config (id : ID)
  | fetch (endpoint : String) (sub iss : ID)
deriving DecidableEq, Repr

/-- The first part of the cache key. -/
def Lookup.sub : Lookup → ID
  | .config id => id
  | .fetch _ sub _ => sub

/-- The second part of the cache key. -/
def Lookup.iss : Lookup → ID
  | .config id => id
  | .fetch _ _ iss => iss

/-- The request of the obtainer (trustresolver.go:572-577, 596-600). -/
def Lookup.request : Lookup → Request
  | .config id => ⟨configURL id, none⟩
  | .fetch ep sub _ => ⟨ep, some sub⟩

/-- What an obtainer returns for an answer (trustresolver.go:572-585, 596-608). -/
def obtain? (P : String → Option Jws) (D : Jws → Option Stmt) (a : Option Answer) : Option Stmt := (httpBody a).bind (parseStmt P D)

/-- The shared cache and what has happened so far: lookups made, statements served for requests, statements returned to callers. Only the cache exists in the code. -/
structure FState where
  store : Store Item
  started : List Lookup
  served : List (Request × Stmt)
  returned : List (Lookup × Stmt)

/-- Nothing has happened. -/
def FState.init : FState := ⟨Store.empty, [], [], []⟩

/-- Steps of `getEntityStatementOrConfiguration` and `obtainAndSetEntityStatementOrConfiguration` (trustresolver.go:534-570). `Allowed` says which lookups may be
made. An obtainer of a lookup that was made may run at any later time and any number of times, which covers the request after a miss and background refreshes whatever the
refresh condition; what it obtains counts as returned also for background refreshes, where the code drops it. -/
inductive FStep (b : Backend) (H : Hashes) (P : String → Option Jws) (D : Jws → Option Stmt) (Allowed : FState → Lookup → Prop) : FState → FState → Prop where
  /-- found in the cache (lines 538-554) -/
  | hit {s : FState} {o : Lookup} {now : Time} {st : Stmt} (ha : Allowed s o) (hg : stmtCacheGet b s.store now o.sub o.iss = some st) :
      FStep b H P D Allowed s { s with started := o :: s.started, returned := (o, st) :: s.returned }
  /-- not found (line 556) -/
  | miss {s : FState} {o : Lookup} {now : Time} (ha : Allowed s o) (hg : stmtCacheGet b s.store now o.sub o.iss = none) :
      FStep b H P D Allowed s { s with started := o :: s.started }
  /-- an answer arrives and is stored (lines 559-570) -/
  | obtained {s : FState} {o : Lookup} {a : Option Answer} {st : Stmt} {tUntil tSet : Time} (ho : o ∈ s.started) (hp : obtain? P D a = some st) :
      FStep b H P D Allowed s
        ⟨b.step s.store ((Write.stmt o.sub o.iss st tUntil tSet).ev H), s.started, (o.request, st) :: s.served, (o, st) :: s.returned⟩
  /-- the library stores something else -/
  | other {s : FState} {sys : Subsystem} {k : Bytes} {v : Item} {now : Time} {ttl : Int} (hs : sys ≠ .entityStatement) :
      FStep b H P D Allowed s { s with store := b.set s.store now (cacheKey (bytes sys.name) k) v ttl }
  /-- the cache loses an entry -/
  | lose {s : FState} {k : Bytes} : FStep b H P D Allowed s { s with store := s.store.put k none }

/-- Reachable states. -/
inductive FReach (b : Backend) (H : Hashes) (P : String → Option Jws) (D : Jws → Option Stmt) (Allowed : FState → Lookup → Prop) : FState → Prop where
  | init : FReach b H P D Allowed FState.init
  | step {s t : FState} : FReach b H P D Allowed s → FStep b H P D Allowed s t → FReach b H P D Allowed t

/-- The lookups the library itself makes: any configuration, and statements at the fetch endpoint of a configuration returned for the issuer (trustresolver.go:333-346). -/
def LibraryLookup (s : FState) : Lookup → Prop
  | .config _ => True
  | .fetch ep _ iss => ep ≠ "" ∧ ∃ st, (Lookup.config iss, st) ∈ s.returned ∧ st.fetchEndpoint = ep

/-- Every lookup a user of the package can make. -/
def AnyLookup (_ : FState) (_ : Lookup) : Prop := True

end Oidfed
