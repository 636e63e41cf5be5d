import Verif.Model.Cache
/-!
# Exchanging the cache (cache/cache.go, cache/redis.go)

The library has one cache in use, a package variable; applications exchange it at any time. Caches are told apart by numbers: 0 is the in-memory cache that is
there from the start, the others are caches that applications make, or Redis servers.
-/

namespace Oidfed

/-- What happens to the caches. -/
inductive SwitchEv (α : Type) where
  /-- The library writes a value (cache/cache.go:95-97). -/
  | set (now : Time) (k : Bytes) (v : α) (ttl : Int)
  /-- Somebody else who uses the same cache, for instance another process with the same Redis server, writes a value. -/
  | foreign (c : Nat) (now : Time) (k : Bytes) (v : α) (ttl : Int)
  /-- A cache loses a key. -/
  | lose (c : Nat) (k : Bytes)
  /-- `SetCache` (cache/cache.go:68-70). -/
  | install (c : Nat)
  /-- `UseRedisCache` (cache/redis.go:39-51) with the options for a server, which answers the ping or not. -/
  | useRedis (c : Nat) (answers : Bool)

/-- The caches and which of them is in use, the package variable `cacheCache` (cache/cache.go:61). -/
structure Caches (α : Type) where
  store : Nat → Store α
  current : Nat

/-- All caches are empty, the in-memory one is in use (cache/cache.go:63-65). -/
def Caches.init {α : Type} : Caches α := ⟨fun _ => Store.empty, 0⟩

/-- The store of one cache changes. -/
def Caches.update {α : Type} (C : Caches α) (c : Nat) (f : Store α → Store α) : Caches α :=
  { C with store := fun d => if d = c then f (C.store d) else C.store d }

/-- The effect of one event; `kind` tells how each of the caches is implemented (cache/cache.go:68-102, cache/redis.go:39-51). -/
def Caches.step {α : Type} (kind : Nat → Backend) (C : Caches α) : SwitchEv α → Caches α
  | .set now k v ttl => C.update C.current (fun S => (kind C.current).set S now k v ttl)
  | .foreign c now k v ttl => C.update c (fun S => (kind c).set S now k v ttl)
  | .lose c k => C.update c (fun S => S.put k none)
  | .install c => { C with current := c }
  | .useRedis c answers => if answers then { C with current := c } else C

/-- The caches after a history, oldest event first. -/
def Caches.run {α : Type} (kind : Nat → Backend) (evs : List (SwitchEv α)) : Caches α := evs.foldl (Caches.step kind) Caches.init

/-- `cache.Get` (cache/cache.go:100-102). -/
def Caches.get {α : Type} (kind : Nat → Backend) (C : Caches α) (now : Time) (k : Bytes) : Option α := (kind C.current).get (C.store C.current) now k

end Oidfed
