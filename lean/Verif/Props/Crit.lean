import Verif.Lemmas.Crit
import Verif.Props.ChainFilter
/-!
# C61: what `crit` claims do
-/

namespace Oidfed
open Spec

/-- What holds instead of C61: the `crit` claim has no influence at all. If all servers serve the same statements with arbitrary other `crit` claims, then the same chains are found, with
those `crit` claims in them, and the same errors and panics occur. -/
theorem C61_crit_has_no_influence (g : Option Nat → List String) (W : World) (fuel : Nat) (r : Resolver) :
    r.chainsNoMeta (WorldWithCrit g W) fuel = (r.chainsNoMeta W fuel).map (Option.map (List.map (List.map (WithCrit g)))) ∧
    r.validChains (WorldWithCrit g W) fuel = (r.validChains W fuel).map (Option.map (List.map (List.map (WithCrit g)))) :=
  ⟨chainsNoMeta_crit g W fuel r, validChains_crit g W fuel r⟩

/-- Likewise for the metadata of a chain. -/
theorem C61_crit_metadata (g : Option Nat → List String) (c : Chain) : chainMetadata (c.map (WithCrit g)) = chainMetadata c := chainMetadata_crit g c

/-- The example federation, in which every statement lists an unknown claim as critical: both chains are found. -/
example : Ex.R.validChains (WorldWithCrit (fun _ => ["must_understand"]) Ex.W) 5 =
    .ok (some [Ex.chainI.map (WithCrit (fun _ => ["must_understand"])), Ex.chainJ.map (WithCrit (fun _ => ["must_understand"]))]) := by
  rw [(C61_crit_has_no_influence _ _ _ _).2]
  rfl

end Oidfed
