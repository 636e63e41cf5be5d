import Verif.Model.Cache
import Verif.Spec.Federation
/-!
# Vocabulary for cache properties
-/

namespace Oidfed.Spec
open Oidfed

/-- In this history (oldest event first) the last `Set` of `k` happened at `t` with value `v` and lifetime `ttl`. -/
def LastWrite {α : Type} (evs : List (CacheEv α)) (k : Bytes) (t : Time) (v : α) (ttl : Int) : Prop :=
  ∃ pre post, evs = pre ++ .set t k v ttl :: post ∧ ∀ t' v' ttl', CacheEv.set t' k v' ttl' ∉ post

/-- The same, and the key was not lost since. -/
def LastWriteKept {α : Type} (evs : List (CacheEv α)) (k : Bytes) (t : Time) (v : α) (ttl : Int) : Prop :=
  ∃ pre post, evs = pre ++ .set t k v ttl :: post ∧ (∀ t' v' ttl', CacheEv.set t' k v' ttl' ∉ post) ∧ CacheEv.lose k ∉ post

/-- The value is still within the lifetime given when it was written. -/
def Alive (t : Time) (ttl : Int) (now : Time) : Prop := now ≤ t + ttl

/-- The events the library causes: a statement obtained for `(sub, iss)` is stored, something is stored in another sub cache, or
a key is lost. -/
def LibraryEv (H : Hashes) (e : CacheEv Item) : Prop :=
  (∃ sub iss st tu ts, e = (Write.stmt sub iss st tu ts).ev H) ∨
  (∃ now s k v ttl, s ≠ Subsystem.entityStatement ∧ e = .set now (cacheKey (bytes s.name) k) v ttl) ∨
  (∃ k, e = .lose k)

/-- The last two statements of the chain are signed with the keys `A` configures for the anchor (or, if it configures none, those
of the anchor's own configuration). -/
def VerifiedAgainst (sig : SigOracle) (A : List Anchor) (c : Chain) : Prop :=
  ∃ pre s top ta keys, c = pre ++ [s, top] ∧ FirstAnchor A top.iss ta ∧ AnchorKeys ta top keys ∧
    Signed sig keys s ∧ Signed sig keys top

/-- The documented refresh window: the statement expires within the grace period and at least the fraction `n/d` of its lifetime
has elapsed. -/
def RefreshDue (grace : Int) (n : Int) (d : Nat) (now : Time) (s : Stmt) : Prop :=
  s.exp - now ≤ grace ∧ n * (s.exp - s.iat) ≤ (now - s.iat) * d

end Oidfed.Spec
