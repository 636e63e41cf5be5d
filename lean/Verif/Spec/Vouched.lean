import Verif.Spec.VerifiedCollect
/-!
# Metadata that a trust chain vouches for
-/

namespace Oidfed.Spec
open Oidfed

/-- `m` is the metadata, for the entity types asked for, that follows from a trust chain from the configuration of `x` to one of the anchors. -/
def VouchedMetadata (W : World) (anchors : List ID) (x : ID) (types : List String) (m : Metadata) : Prop :=
  ∃ s0 rest, W.start x = some s0 ∧ Linked (anchors.map (fun a => ⟨a, none⟩)) (s0 :: rest) ∧ (∀ s ∈ s0 :: rest, ∃ keys, Signed W.sig keys s) ∧
    chainMetadata (restrictTypes types s0 :: rest) = .ok (some m)

end Oidfed.Spec
