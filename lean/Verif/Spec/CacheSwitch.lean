import Verif.Model.CacheSwitch
import Verif.Spec.Cache
/-!
# Which cache is in use, and what was written to it
-/

namespace Oidfed.Spec

/-- The event makes the library use this cache. A Redis server that does not answer is not used. -/
def Installs {α : Type} (e : SwitchEv α) (c : Nat) : Prop := e = .install c ∨ e = .useRedis c true

/-- The cache that is in use after a history: the one installed last, or the one of the beginning. -/
def InUse {α : Type} (evs : List (SwitchEv α)) (c : Nat) : Prop :=
  (∃ pre e post, evs = pre ++ e :: post ∧ Installs e c ∧ ∀ e' ∈ post, ∀ d, ¬ Installs e' d) ∨ (c = 0 ∧ ∀ e ∈ evs, ∀ d, ¬ Installs e d)

/-- After the history `evs` the event writes this to the cache `c`: the library does while it uses `c`, or somebody else does. -/
def WritesTo {α : Type} (evs : List (SwitchEv α)) (e : SwitchEv α) (c : Nat) (t : Time) (k : Bytes) (v : α) (ttl : Int) : Prop :=
  (e = .set t k v ttl ∧ InUse evs c) ∨ e = .foreign c t k v ttl

/-- The last value that was written under the key to the cache. -/
def LastWriteTo {α : Type} (evs : List (SwitchEv α)) (c : Nat) (k : Bytes) (t : Time) (v : α) (ttl : Int) : Prop :=
  ∃ pre e post, evs = pre ++ e :: post ∧ WritesTo pre e c t k v ttl ∧
    ∀ mid e' post', post = mid ++ e' :: post' → ∀ t' v' ttl', ¬ WritesTo (pre ++ e :: mid) e' c t' k v' ttl'

/-- The same, and the cache has not lost it since. -/
def LastWriteKeptIn {α : Type} (evs : List (SwitchEv α)) (c : Nat) (k : Bytes) (t : Time) (v : α) (ttl : Int) : Prop :=
  ∃ pre e post, evs = pre ++ e :: post ∧ WritesTo pre e c t k v ttl ∧
    (∀ mid e' post', post = mid ++ e' :: post' → ∀ t' v' ttl', ¬ WritesTo (pre ++ e :: mid) e' c t' k v' ttl') ∧ SwitchEv.lose c k ∉ post

end Oidfed.Spec
