import Verif.Spec.Narrow
import Verif.Spec.Chains
import Verif.Model.Discovery
import Verif.Model.MetaResolver
/-!
# Vocabulary for collections of entities with verified chains
-/

namespace Oidfed.Spec
open Oidfed

/-- There is a trust chain from the configuration of `x` to one of the anchors: statements linked with each other, beginning with the configuration that is obtained for `x`
and ending with the one of the anchor, each of them with a signature that verifies. -/
def HasTrustChain (W : World) (anchors : List ID) (x : ID) : Prop :=
  ∃ s0 rest, W.start x = some s0 ∧ Linked (anchors.map (fun a => ⟨a, none⟩)) (s0 :: rest) ∧ ∀ s ∈ s0 :: rest, ∃ keys, Signed W.sig keys s

/-- The filter for verified chains asks the local metadata resolver, and the resolutions end. -/
def AsksLocally (E : Env) (pos : ID → CallPos) (R : DResolver) (anchor : ID) (es : List Collected) : Prop :=
  ∀ e ∈ es, ∃ b, R.possible e.id [anchor] = .ok b ∧ localPossible E (pos e.id) ⟨e.id, [anchor], []⟩ = some (.ok (b, !b))

end Oidfed.Spec
