import Verif.Spec.Federation
/-!
# Chain-level vocabulary

What a user sees of a resolution is a list of chains; these definitions speak about such a list only.
-/

namespace Oidfed

/-- The operators of the metadata policy language the library supports. -/
def supportedOperators : List String :=
  ["value", "add", "default", "one_of", "subset_of", "superset_of", "essential"]

end Oidfed

namespace Oidfed.Spec
open Oidfed

/-- A finished call of `ResolveToValidChainsWithoutVerifyingMetadata` or `ResolveToValidChains` on `r` returned a list that
contains `c`. -/
def Produces (W : World) (r : Resolver) (c : Chain) : Prop :=
  ∃ fuel cs, (r.chainsNoMeta W fuel = .ok (some cs) ∨ r.validChains W fuel = .ok (some cs)) ∧ c ∈ cs

/-- `c` is leaf configuration, then subordinate statements each issued by the subject of the next, then the self-issued
configuration of a configured anchor which issued the last of them. -/
def Linked (A : List Anchor) (c : Chain) : Prop :=
  ∃ leaf subs top, c = leaf :: (subs ++ [top]) ∧
    (∃ s, subs[0]? = some s ∧ s.sub = leaf.iss) ∧
    (∀ k s next, subs[k]? = some s → subs[k+1]? = some next → s.iss = next.sub) ∧
    (∃ s, subs.getLast? = some s ∧ s.iss = top.iss) ∧
    top.sub = top.iss ∧ (∃ a ∈ A, a.id = top.iss)

/-- A clock reading taken during the resolution. -/
def Reading (W : World) (now : Time) : Prop := ∃ p, now = W.nowEC p ∨ now = W.nowSub p

end Oidfed.Spec

namespace Oidfed.Spec
open Oidfed

/-- Statement `s` declares metadata for one of the six entity types the library knows. -/
def DeclaresKnown (s : Stmt) (ty : String) : Prop :=
  ∃ m t, s.metadata = some m ∧ t.tag = ty ∧ ∃ em, m.known t = some em

/-- Statement `s` declares metadata for an entity type, known to the library or not. -/
def Declares (s : Stmt) (ty : String) : Prop :=
  DeclaresKnown s ty ∨ ∃ m x v, s.metadata = some m ∧ m.extra = some x ∧ (ty, v) ∈ x

end Oidfed.Spec
