import Verif.Model.Discovery
/-!
# Which collected entities pass a collector's filters
-/

namespace Oidfed.Spec
open Oidfed

/-- The resolver confirms a valid chain from the entity to the anchor, and every filter accepts the entity. -/
def PassesAll (R : DResolver) (anchor : ID) (fs : List EFilter) (e : Option Collected) : Prop :=
  (∃ c, e = some c ∧ R.possible c.id [anchor] = .ok true) ∧ ∀ f ∈ fs, f e = .ok true

end Oidfed.Spec
