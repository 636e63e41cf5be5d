import Verif.Model.Resolver
/-!
# The cache (`cache/cache.go`, `cache/redis.go`) and its users

Go strings are byte sequences; cache keys are modelled as such because some of them contain raw hash bytes.
The behaviour of the two back ends is third-party (`gocache` v2.2.2, `go-redis` v9.10.0 and the Redis server); what is assumed
about it is spelled out at `Backend.set` and `Backend.get`.
-/

namespace Oidfed

/-- A Go string as the bytes it consists of. -/
abbrev Bytes := List UInt8

/-- The UTF-8 bytes of a string (Go's `[]byte(s)`). -/
def bytes (s : String) : Bytes := s.toUTF8.data.toList

/-! ## Keys -/

/-- The URL-safe base64 alphabet: the ASCII code of digit `n`. -/
def b64Code (n : Nat) : Nat :=
  if n < 26 then 65 + n else if n < 52 then 71 + n else if n < 62 then n - 4 else if n = 62 then 45 else 95

/-- One digit as a byte. -/
def b64Char (n : Nat) : UInt8 := UInt8.ofNat (b64Code n)

/-- `base64.URLEncoding.EncodeToString` (used at cache/cache.go:90): groups of three bytes, padded with `=`. -/
def b64 : Bytes → Bytes
  | [] => []
  | [a] => [b64Char (a.toNat / 4), b64Char (a.toNat % 4 * 16), 61, 61]
  | [a, b] => [b64Char (a.toNat / 4), b64Char (a.toNat % 4 * 16 + b.toNat / 16), b64Char (b.toNat % 16 * 4), 61]
  | a :: b :: c :: r =>
    b64Char (a.toNat / 4) :: b64Char (a.toNat % 4 * 16 + b.toNat / 16) :: b64Char (b.toNat % 16 * 4 + c.toNat / 64) ::
      b64Char (c.toNat % 64) :: b64 r

/-- The sub caches (cache/cache.go:73-81). -/
inductive Subsystem where
  | entityStatement | opMetadata | entityConfiguration | trustTree | trustTreeChains | resolvedMetadata | subordinateListing
deriving DecidableEq, Repr

/-- The constants of cache/cache.go:74-80. -/
def Subsystem.name : Subsystem → String
  | .entityStatement => "entity_statement"
  | .opMetadata => "op_metadata"
  | .entityConfiguration => "entity_configuration"
  | .trustTree => "trust_tree"
  | .trustTreeChains => "trust_tree_chains"
  | .resolvedMetadata => "trustchain_resolved_metadata"
  | .subordinateListing => "subordinate_listing"

/-- `cache.Key` (cache/cache.go:84-86). -/
def cacheKey (subsystem subkey : Bytes) : Bytes := subsystem ++ bytes ":" ++ subkey

/-- `cache.EntityStmtCacheKey` (cache/cache.go:89-92). -/
def entityStmtKey (sub iss : Bytes) : Bytes :=
  cacheKey (bytes Subsystem.entityStatement.name) (b64 sub ++ bytes ":" ++ b64 iss)

/-! ## Timed stores -/

/-- Which `Cache` implementation is installed: the default one (cache/cache.go:23-59) or Redis (cache/redis.go). -/
inductive Backend where
  | memory | redis
deriving DecidableEq, Repr

/-- A stored value and the moment it expires, if any. -/
structure CEntry (α : Type) where
  val : α
  expires : Option Time

/-- The contents of a store. -/
abbrev Store (α : Type) := Bytes → Option (CEntry α)

/-- The empty store. -/
def Store.empty {α : Type} : Store α := fun _ => none

/-- Write one cell. -/
def Store.put {α : Type} (S : Store α) (k : Bytes) (e : Option (CEntry α)) : Store α := fun k' => if k' = k then e else S k'

/-- One millisecond. -/
def millisecond : Int := 1000000

/-- The lifetime Redis is given for a positive duration: whole seconds as such, otherwise truncated to milliseconds but at
least one (go-redis `usePrecise`, `formatMs`, `formatSec`). -/
def redisTTL (ttl : Int) : Int := max millisecond (ttl / millisecond * millisecond)

/-- `Cache.Set` at clock reading `now` (cache/cache.go:52-59, cache/redis.go:30-36). `gocache.SetWithTTL` removes the key for a
duration below one that is not −1 and never expires the value for −1 (`NoExpiration`). go-redis sends an expiry for positive
durations only; −1 (`KeepTTL`) keeps the expiry of the previous value, every other duration stores without expiry.
Serialisation failures are not modelled. -/
def Backend.set {α : Type} (b : Backend) (S : Store α) (now : Time) (k : Bytes) (v : α) (ttl : Int) : Store α :=
  match b with
  | .memory =>
    if ttl = -1 then S.put k (some ⟨v, none⟩)
    else if ttl < 1 then S.put k none
    else S.put k (some ⟨v, some (now + ttl)⟩)
  | .redis =>
    if ttl > 0 then S.put k (some ⟨v, some (now + redisTTL ttl)⟩)
    else if ttl = -1 then S.put k (some ⟨v, (S k).bind CEntry.expires⟩)
    else S.put k (some ⟨v, none⟩)

/-- `Cache.Get` at clock reading `now` (cache/cache.go:38-49, cache/redis.go:18-27): gocache serves a value as long as the clock
is not past its expiry, Redis as long as the clock is before it. -/
def Backend.get {α : Type} (b : Backend) (S : Store α) (now : Time) (k : Bytes) : Option α :=
  match S k with
  | none => none
  | some e =>
    match b, e.expires with
    | _, none => some e.val
    | .memory, some x => if x < now then none else some e.val
    | .redis, some x => if now < x then some e.val else none

/-- What happens to a store: a `Set`, or the loss of a key (eviction by the janitor or for lack of space, a restart, `DEL`). -/
inductive CacheEv (α : Type) where
  | set (now : Time) (k : Bytes) (v : α) (ttl : Int)
  | lose (k : Bytes)

/-- The effect of one event. -/
def Backend.step {α : Type} (b : Backend) (S : Store α) : CacheEv α → Store α
  | .set now k v ttl => b.set S now k v ttl
  | .lose k => S.put k none

/-- The store after a history, oldest event first, from the empty store. -/
def Backend.run {α : Type} (b : Backend) (evs : List (CacheEv α)) : Store α := evs.foldl b.step Store.empty

/-! ## What the library stores -/

/-- The values the library stores, as a later `Get` decodes them. -/
inductive Item where
  | stmt (s : Stmt)
  | tree (t : Tree)
  | chains (cs : List Chain)
  | metadata (m : Metadata)
  | ids (l : List ID)

/-- The cache round trip of an entity statement (entitystatement.go:43-64): its metadata goes through the metadata codec.
Everything else the model knows of survives. -/
def Stmt.viaCache (s : Stmt) : Stmt := { s with metadata := s.metadata.map Metadata.viaCache }

mutual
/-- The cache round trip of a trust tree: unexported fields of `trustTree` (trustresolver.go:308-312) are not encoded. -/
def Tree.viaCache : Tree → Tree
  | .node e s n as _ _ _ _ _ =>
    .node (e.map Stmt.viaCache) (s.map Stmt.viaCache) n (Tree.viaCacheList as) false Time.zero 0 [] []
/-- The same for a list of trees. -/
def Tree.viaCacheList : List Tree → List Tree
  | [] => []
  | t :: ts => t.viaCache :: Tree.viaCacheList ts
end

/-- The hash functions behind two of the keys. SHA3-256 of the msgpack encoding is arbitrary in the model.  A resolver is hashed
through its starting entity, the ids of its anchors and its types only (trustresolver.go:149-171); a chain through all of its
contents (trustchain.go:18-25). Maps in a chain are encoded in whatever order they are iterated, so that the same chain may have several hashes:
the number stands for the orders of one encoding. -/
structure Hashes where
  resolver : ID → List ID → List String → Bytes
  chain : Nat → Chain → Bytes

/-- Key of a cached chain list (trustresolver.go:256-278). -/
def Resolver.chainsKey (H : Hashes) (r : Resolver) : Bytes :=
  cacheKey (bytes Subsystem.trustTreeChains.name) (H.resolver r.start (anchorIDs r.anchors) r.types)

/-- Key of a cached trust tree (trustresolver.go:280-301). -/
def Resolver.treeKey (H : Hashes) (r : Resolver) : Bytes :=
  cacheKey (bytes Subsystem.trustTree.name) (H.resolver r.start (anchorIDs r.anchors) r.types)

/-- Key of the cached metadata of a chain (trustchain.go:114-137). -/
def metadataKey (H : Hashes) (ord : Nat) (c : Chain) : Bytes := cacheKey (bytes Subsystem.resolvedMetadata.name) (H.chain ord c)

/-- Writes other than those of trust trees and chain lists. `tUntil` is the clock reading of `time.Until`, `tSet` the one inside
the store. -/
inductive Write where
  /-- `entityStmtCacheSet` (trustresolver.go:504-510), called with every statement obtained over HTTP (line 568), in the
  foreground or in the background refresh -/
  | stmt (sub iss : ID) (st : Stmt) (tUntil tSet : Time)
  /-- `cacheSetMetadata` (trustchain.go:128-137) -/
  | metadata (ord : Nat) (c : Chain) (m : Metadata) (tUntil tSet : Time)
  /-- `subordinateListingCacheSet` (discovery.go:704-711); the lifetime is a constant given here as a parameter -/
  | listing (endpoint : Bytes) (ids : List ID) (ttl : Int) (tSet : Time)

/-- The store event of a write. -/
def Write.ev (H : Hashes) : Write → CacheEv Item
  | .stmt sub iss st tu ts => .set ts (entityStmtKey (bytes sub) (bytes iss)) (.stmt st.viaCache) (untilT tu st.exp)
  | .metadata o c m tu ts => .set ts (metadataKey H o c) (.metadata m.viaCache) (untilT tu (chainExp c))
  | .listing ep ids ttl ts => .set ts (cacheKey (bytes Subsystem.subordinateListing.name) ep) (.ids ids) ttl

/-- `entityStmtCacheGet` (trustresolver.go:511-522). -/
def stmtCacheGet (b : Backend) (S : Store Item) (now : Time) (sub iss : ID) : Option Stmt :=
  match b.get S now (entityStmtKey (bytes sub) (bytes iss)) with
  | some (.stmt s) => some s
  | _ => none

/-- `cacheGetMetadata` (trustchain.go:114-126). -/
def metadataCacheGet (b : Backend) (H : Hashes) (S : Store Item) (now : Time) (ord : Nat) (c : Chain) : Option Metadata :=
  match b.get S now (metadataKey H ord c) with
  | some (.metadata m) => some m
  | _ => none

/-- `getEntityStatementOrConfiguration` (trustresolver.go:534-557): the answer given the store at the moment of the lookup and
what the HTTP request (made only on a miss) would yield. The store write on a miss is a separate `Write.stmt` event, since other
calls may run in between. -/
def getStatement (b : Backend) (S : Store Item) (now : Time) (sub iss : ID) (fetched : Option Stmt) : Option Stmt :=
  match stmtCacheGet b S now sub iss with
  | some s => some s
  | none => fetched

/-! ## The background refresh -/

/-- `float64(a)/float64(b) > n/d` (trustresolver.go:543) with exact instead of rounded arithmetic; division by zero gives an
infinity of the sign of `a`, or NaN which compares false. -/
def ratioGt (a b : Int) (n : Int) (d : Nat) : Bool :=
  if b > 0 then decide (n * b < a * d)
  else if b < 0 then decide (a * d < n * b)
  else decide (a > 0)

/-- The refresh decision (trustresolver.go:541-543) for grace period `grace` and factor `n/d`. -/
def shouldRefresh (grace : Int) (n : Int) (d : Nat) (now : Time) (s : Stmt) : Bool :=
  let remaining := untilT now s.exp
  let total := durSub s.exp s.iat
  decide (remaining ≤ grace) && ratioGt remaining total n d

/-! ## Resolving with the cache

Several calls of `ResolveToValidChainsWithoutVerifyingMetadata` (trustresolver.go:185-198), each on its own resolver, may run at
the same time and share the store. One call is a sequence of steps, at most one store access each. -/

/-- How far a call has got. -/
inductive Phase where
  /-- before the lookup of chains (line 186) -/
  | init
  /-- the lookup of chains found nothing; before `Resolve` (line 195) -/
  | miss
  /-- `Resolve` done (line 196) -/
  | resolved (t : Tree)
  /-- `VerifySignatures` done (line 197) -/
  | verified (t : Tree)
  /-- returned -/
  | done (cs : List Chain)

/-- A running or finished call. -/
structure Call where
  world : World
  fuel : Nat
  r : Resolver
  phase : Phase

/-- `trustTree.expiresAt`. -/
def Tree.expiresAt : Tree → Time
  | .node _ _ _ _ _ x _ _ _ => x

/-- The cached chain list (trustresolver.go:256-267). -/
def chainsGet (b : Backend) (H : Hashes) (S : Store Item) (now : Time) (r : Resolver) : Option (List Chain) :=
  match b.get S now (r.chainsKey H) with
  | some (.chains cs) => some cs
  | _ => none

/-- The cached tree (trustresolver.go:280-291). -/
def treeGet (b : Backend) (H : Hashes) (S : Store Item) (now : Time) (r : Resolver) : Option Tree :=
  match b.get S now (r.treeKey H) with
  | some (.tree t) => some t
  | _ => none

/-- `cacheSetTrustTree` (trustresolver.go:292-301). -/
def treeSet (b : Backend) (H : Hashes) (S : Store Item) (tUntil tSet : Time) (r : Resolver) (t : Tree) : Store Item :=
  b.set S tSet (r.treeKey H) (.tree t.viaCache) (untilT tUntil t.expiresAt)

/-- `cacheSetTrustChains` (trustresolver.go:269-278); `t` is the resolver's tree. -/
def chainsSet (b : Backend) (H : Hashes) (S : Store Item) (tUntil tSet : Time) (r : Resolver) (t : Tree) (cs : List Chain) :
    Store Item :=
  b.set S tSet (r.chainsKey H) (.chains (cs.map (·.map Stmt.viaCache))) (untilT tUntil t.expiresAt)

/-- One step of a call on the shared store. Clock readings are arbitrary moments after 1970. The resolver is fresh, so its tree is the
zero tree before `Resolve`. -/
inductive CallStep (b : Backend) (H : Hashes) : Store Item → Call → Store Item → Call → Prop where
  /-- chains found (trustresolver.go:186-194) -/
  | hit {S : Store Item} {c : Call} {now : Time} {cs : List Chain} (hn : 0 ≤ now) (hp : c.phase = .init)
      (hg : chainsGet b H S now c.r = some cs) : CallStep b H S c S { c with phase := .done cs }
  /-- chains not found -/
  | miss {S : Store Item} {c : Call} {now : Time} (hn : 0 ≤ now) (hp : c.phase = .init)
      (hg : chainsGet b H S now c.r = none) : CallStep b H S c S { c with phase := .miss }
  /-- tree found (lines 202-207) -/
  | treeHit {S : Store Item} {c : Call} {now : Time} {t : Tree} (hn : 0 ≤ now) (hp : c.phase = .miss)
      (hg : treeGet b H S now c.r = some t) : CallStep b H S c S { c with phase := .resolved t }
  /-- tree not found and no starting configuration (lines 208-214): the tree stays empty and is not stored -/
  | noStart {S : Store Item} {c : Call} {now : Time} (hn : 0 ≤ now) (hp : c.phase = .miss)
      (hg : treeGet b H S now c.r = none) (hs : c.r.start = "" ∨ c.world.start c.r.start = none) :
      CallStep b H S c S { c with phase := .resolved Tree.zero }
  /-- tree not found: resolve it and store it (lines 215-226) -/
  | resolve {S : Store Item} {c : Call} {now tUntil tSet : Time} {t : Tree} (hn : 0 ≤ now) (hu : 0 ≤ tUntil) (ht : 0 ≤ tSet)
      (hp : c.phase = .miss) (hg : treeGet b H S now c.r = none)
      (hs : ¬ (c.r.start = "" ∨ c.world.start c.r.start = none))
      (hr : c.r.resolveTree c.world c.fuel = .ok (some t)) :
      CallStep b H S c (treeSet b H S tUntil tSet c.r t) { c with phase := .resolved t }
  /-- verify the signatures and store the tree (lines 230-235) -/
  | verify {S : Store Item} {c : Call} {tUntil tSet : Time} {t : Tree} (hu : 0 ≤ tUntil) (ht : 0 ≤ tSet)
      (hp : c.phase = .resolved t) :
      CallStep b H S c (treeSet b H S tUntil tSet c.r (verifySigs c.world.sig c.r.anchors t))
        { c with phase := .verified (verifySigs c.world.sig c.r.anchors t) }
  /-- chains found in the meantime (lines 239-245) -/
  | hit2 {S : Store Item} {c : Call} {now : Time} {t : Tree} {cs : List Chain} (hn : 0 ≤ now) (hp : c.phase = .verified t)
      (hg : chainsGet b H S now c.r = some cs) : CallStep b H S c S { c with phase := .done cs }
  /-- collect the chains; an empty (nil) list is not stored (lines 246-249) -/
  | empty {S : Store Item} {c : Call} {now : Time} {t : Tree} (hn : 0 ≤ now) (hp : c.phase = .verified t)
      (hg : chainsGet b H S now c.r = none) (hc : chains t = []) : CallStep b H S c S { c with phase := .done [] }
  /-- collect the chains and store them (lines 246-254) -/
  | finish {S : Store Item} {c : Call} {now tUntil tSet : Time} {t : Tree} (hn : 0 ≤ now) (hu : 0 ≤ tUntil) (ht : 0 ≤ tSet)
      (hp : c.phase = .verified t) (hg : chainsGet b H S now c.r = none) (hc : chains t ≠ []) :
      CallStep b H S c (chainsSet b H S tUntil tSet c.r t (chains t)) { c with phase := .done (chains t) }

/-- The states reachable by starting calls admitted by `P`, letting them step in any interleaving, other cache writes and losses
of keys. -/
inductive CacheReach (b : Backend) (H : Hashes) (P : World → Resolver → Prop) : Store Item → List Call → Prop where
  | init : CacheReach b H P Store.empty []
  | spawn {S : Store Item} {calls : List Call} (h : CacheReach b H P S calls) (W : World) (fuel : Nat) (r : Resolver)
      (hP : P W r) : CacheReach b H P S (⟨W, fuel, r, .init⟩ :: calls)
  | step {S S' : Store Item} {pre post : List Call} {c c' : Call} (h : CacheReach b H P S (pre ++ c :: post))
      (hs : CallStep b H S c S' c') : CacheReach b H P S' (pre ++ c' :: post)
  | write {S : Store Item} {calls : List Call} (h : CacheReach b H P S calls) (w : Write) :
      CacheReach b H P (b.step S (w.ev H)) calls
  | lose {S : Store Item} {calls : List Call} (h : CacheReach b H P S calls) (k : Bytes) :
      CacheReach b H P (b.step S (.lose k)) calls

end Oidfed
