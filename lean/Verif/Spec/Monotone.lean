import Verif.Spec.Chains
/-!
# Comparing two resolutions

Relations between two worlds, and between the metadata of two leaves, used to say how the answers of two resolutions are
related.
-/

namespace Oidfed.Spec
open Oidfed

/-- `W'` is `W` with more failures: every request is answered as in `W` or fails, every signature that verifies in `W'`
verifies in `W`; clocks and host names are the same. -/
structure MoreFailures (W W' : World) : Prop where
  start : ∀ id, W'.start id = W.start id ∨ W'.start id = none
  ec : ∀ p id, W'.ec p id = W.ec p id ∨ W'.ec p id = none
  fetch : ∀ p ep sub iss, W'.fetch p ep sub iss = W.fetch p ep sub iss ∨ W'.fetch p ep sub iss = none
  sig : ∀ ks r, W'.sig ks r = true → W.sig ks r = true
  clocks : W'.nowEC = W.nowEC ∧ W'.nowSub = W.nowSub
  host : W'.host = W.host

/-- `W'` is `W` at a later time: same answers, no clock reading is earlier. -/
structure Later (W W' : World) : Prop where
  start : W'.start = W.start
  ec : W'.ec = W.ec
  fetch : W'.fetch = W.fetch
  sig : W'.sig = W.sig
  host : W'.host = W.host
  nowEC : ∀ p, W.nowEC p ≤ W'.nowEC p
  nowSub : ∀ p, W.nowSub p ≤ W'.nowSub p

/-- Nothing that is served in `W` was issued in the future of the clock it is checked against. -/
def NotFromFuture (W : World) : Prop :=
  (∀ p id s, W.ec p id = some s → s.iat ≤ W.nowEC p) ∧
  (∀ p ep sub iss s, W.fetch p ep sub iss = some s → s.iat ≤ W.nowSub p)

/-- `m'` is `m` reduced to the entity types `ts`. -/
def ReducedTo (ts : List String) (m m' : Metadata) : Prop :=
  (∀ t, m'.known t = if t.tag ∈ ts then m.known t else none) ∧
  (∀ k, (m'.extra.getD []).get k = if k ∈ ts then (m.extra.getD []).get k else none)

/-- `s'` is the statement `s` with its metadata reduced to the entity types `ts`. -/
def LeafReducedTo (ts : List String) (s s' : Stmt) : Prop :=
  s' = { s with metadata := s'.metadata } ∧
  ∃ m m', s.metadata = some m ∧ s'.metadata = some m' ∧ ReducedTo ts m m'

end Oidfed.Spec
