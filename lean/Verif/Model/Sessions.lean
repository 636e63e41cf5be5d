import Verif.Model.Cache
import Verif.Model.Reuse
/-!
# Any number of `TrustResolver` objects that share the cache (`trustresolver.go`)

Each object is used by one goroutine at a time, through any of its methods; the goroutines run at the same time. A method is a sequence of steps with at most one
access to the cache each, so that the other goroutines can do anything between two accesses.
-/

namespace Oidfed

/-- The exported methods of a resolver that concern the cache. -/
inductive Method where
  /-- `Resolve` (trustresolver.go:201-227) -/
  | resolve
  /-- `VerifySignatures` (trustresolver.go:230-235) -/
  | verify
  /-- `Chains` (trustresolver.go:238-254) -/
  | chains
  /-- `ResolveToValidChainsWithoutVerifyingMetadata` (trustresolver.go:185-198), to which `ResolveToValidChains` only adds a filter of its result -/
  | call
deriving DecidableEq, Repr

/-- The steps that methods consist of. -/
inductive Micro where
  /-- look up the chains; if they are found they are returned (trustresolver.go:186-194, 239-245) -/
  | lookup
  /-- look up the tree (trustresolver.go:202-207) -/
  | tree
  /-- build the tree from the network (trustresolver.go:208-223) -/
  | build
  /-- verify the signatures in the tree (trustresolver.go:231) -/
  | verify
  /-- store the tree (trustresolver.go:224-226, 232-234) -/
  | storeTree
  /-- collect the chains of the tree (trustresolver.go:246-249) -/
  | collect
  /-- store the chains and return them (trustresolver.go:250-253) -/
  | storeChains (cs : List Chain)

/-- The steps of a method. -/
def Method.steps : Method → List Micro
  | .resolve => [.tree]
  | .verify => [.verify]
  | .chains => [.lookup, .collect]
  | .call => [.lookup, .tree, .verify, .lookup, .collect]

mutual
/-- What the cache keeps of a tree (trustresolver.go:304-313): the exported fields. -/
def Tree.exported : Tree → Tree
  | .node e s n as _ _ _ _ _ => .node e s n (Tree.exportedList as) false Time.zero 0 [] []
/-- The same for a list of trees. -/
def Tree.exportedList : List Tree → List Tree
  | [] => []
  | t :: ts => t.exported :: Tree.exportedList ts
end

/-- An object and what its goroutine is doing: the method called last (none if the object is new or its fields have been assigned to since), its world (what it gets
from the network and the clock) and the object as it was when the method was called, the remaining steps, and the chains returned, if the method has returned any.
`panicked` if it ended in a panic. -/
structure Session where
  obj : ResolverObj
  method : Option Method
  world : World
  fuel : Nat
  before : ResolverObj
  todo : List Micro
  ret : Option (List Chain)
  panicked : Bool

/-- A resolver that a caller has just made. -/
def Session.new (r : Resolver) (W : World) : Session := ⟨.fresh r, none, W, 0, .fresh r, [], none, false⟩

/-- The caller assigns to the exported fields (trustresolver.go:142-146). -/
def Session.assign (s : Session) (r : Resolver) : Session := ⟨⟨r, s.obj.tree⟩, none, s.world, 0, ⟨r, s.obj.tree⟩, [], none, false⟩

/-- The caller calls a method. -/
def Session.start (s : Session) (m : Method) (W : World) (fuel : Nat) : Session := ⟨s.obj, some m, W, fuel, s.obj, m.steps, none, false⟩

/-- One step of a goroutine on the shared store. Clock readings are arbitrary moments after 1970. -/
inductive SessionStep (b : Backend) (H : Hashes) : Store Item → Session → Store Item → Session → Prop where
  /-- chains found -/
  | hit {S : Store Item} {s : Session} {k : List Micro} {now : Time} {cs : List Chain} (hn : 0 ≤ now) (ht : s.todo = .lookup :: k)
      (hg : chainsGet b H S now s.obj.r = some cs) : SessionStep b H S s S { s with todo := [], ret := some cs }
  /-- chains not found -/
  | miss {S : Store Item} {s : Session} {k : List Micro} {now : Time} (hn : 0 ≤ now) (ht : s.todo = .lookup :: k)
      (hg : chainsGet b H S now s.obj.r = none) : SessionStep b H S s S { s with todo := k }
  /-- tree found: it is decoded into the object's tree, whose unexported fields may stay (trustresolver.go:287-289); which of them is left open -/
  | treeHit {S : Store Item} {s : Session} {k : List Micro} {now : Time} {t t' : Tree} (hn : 0 ≤ now) (ht : s.todo = .tree :: k)
      (hg : treeGet b H S now s.obj.r = some t) (he : t'.exported = t.exported) :
      SessionStep b H S s S { s with todo := k, obj := ⟨s.obj.r, t'⟩ }
  /-- tree not found -/
  | treeMiss {S : Store Item} {s : Session} {k : List Micro} {now : Time} (hn : 0 ≤ now) (ht : s.todo = .tree :: k)
      (hg : treeGet b H S now s.obj.r = none) : SessionStep b H S s S { s with todo := .build :: k }
  /-- no starting configuration: the tree stays what it was and is not stored -/
  | noStart {S : Store Item} {s : Session} {k : List Micro} (ht : s.todo = .build :: k)
      (hs : s.obj.r.start = "" ∨ s.world.start s.obj.r.start = none) : SessionStep b H S s S { s with todo := k }
  /-- the tree is built -/
  | build {S : Store Item} {s : Session} {k : List Micro} {o : ResolverObj} (ht : s.todo = .build :: k)
      (hs : ¬ (s.obj.r.start = "" ∨ s.world.start s.obj.r.start = none)) (hr : s.obj.resolve s.world s.fuel = .ok (some o)) :
      SessionStep b H S s S { s with todo := .storeTree :: k, obj := o }
  /-- building the tree panics (trustresolver.go:215-217) -/
  | panic {S : Store Item} {s : Session} {k : List Micro} {e : Fail} (ht : s.todo = .build :: k)
      (hr : s.obj.resolve s.world s.fuel = .error e) : SessionStep b H S s S { s with todo := [], panicked := true }
  /-- the signatures are verified -/
  | verify {S : Store Item} {s : Session} {k : List Micro} (ht : s.todo = .verify :: k) :
      SessionStep b H S s S { s with todo := .storeTree :: k, obj := s.obj.verifySignatures s.world }
  /-- the tree is stored -/
  | storeTree {S : Store Item} {s : Session} {k : List Micro} {tUntil tSet : Time} (hu : 0 ≤ tUntil) (hst : 0 ≤ tSet) (ht : s.todo = .storeTree :: k) :
      SessionStep b H S s (treeSet b H S tUntil tSet s.obj.r s.obj.tree) { s with todo := k }
  /-- there are no chains: nil is returned and nothing stored -/
  | empty {S : Store Item} {s : Session} {k : List Micro} (ht : s.todo = .collect :: k) (hc : s.obj.chains = []) :
      SessionStep b H S s S { s with todo := k, ret := some [] }
  /-- there are chains -/
  | collect {S : Store Item} {s : Session} {k : List Micro} (ht : s.todo = .collect :: k) (hc : s.obj.chains ≠ []) :
      SessionStep b H S s S { s with todo := .storeChains s.obj.chains :: k }
  /-- the chains are stored and returned -/
  | storeChains {S : Store Item} {s : Session} {k : List Micro} {cs : List Chain} {tUntil tSet : Time} (hu : 0 ≤ tUntil) (hst : 0 ≤ tSet)
      (ht : s.todo = .storeChains cs :: k) :
      SessionStep b H S s (chainsSet b H S tUntil tSet s.obj.r s.obj.tree cs) { s with todo := k, ret := some cs }
  /-- the caller assigns to the exported fields, between two method calls -/
  | assign {S : Store Item} {s : Session} (r : Resolver) (ht : s.todo = []) : SessionStep b H S s S (s.assign r)
  /-- the caller calls a method -/
  | start {S : Store Item} {s : Session} (m : Method) (W : World) (fuel : Nat) (ht : s.todo = []) : SessionStep b H S s S (s.start m W fuel)

/-- The states reachable by making resolvers, letting their goroutines step in any interleaving, other cache writes and losses of keys. -/
inductive SessionReach (b : Backend) (H : Hashes) : Store Item → List Session → Prop where
  | init : SessionReach b H Store.empty []
  | spawn {S : Store Item} {ss : List Session} (h : SessionReach b H S ss) (r : Resolver) (W : World) : SessionReach b H S (Session.new r W :: ss)
  | step {S S' : Store Item} {pre post : List Session} {s s' : Session} (h : SessionReach b H S (pre ++ s :: post)) (hs : SessionStep b H S s S' s') :
      SessionReach b H S' (pre ++ s' :: post)
  | write {S : Store Item} {ss : List Session} (h : SessionReach b H S ss) (w : Write) : SessionReach b H (b.step S (w.ev H)) ss
  | lose {S : Store Item} {ss : List Session} (h : SessionReach b H S ss) (k : Bytes) : SessionReach b H (b.step S (.lose k)) ss

end Oidfed
