import Verif.Validation.Federation
import Verif.Model.Discovery
import Verif.Model.MetaResolver
/-!
# The library's own tests of filtering discovered providers, run on the model

`TestFilterableVerifiedChainsEntityCollector_CollectEntities` (discovery_test.go:86-196) for the federation of Validation/Federation. The entities that the collector finds below the trust anchor are
given; collecting them is concurrent and not run here. These are tests of the model, not proofs of properties.
-/

namespace Oidfed.Validation
open Oidfed

def chainsFor (id : ID) (anchors : List ID) : Res (List Chain) :=
  match (Req.resolver ⟨id, anchors, []⟩).validChains world 10 with
  | .ok (some cs) => .ok cs
  | .ok none => .error .panic
  | .error f => .error f

def resolver : DResolver where
  possible := fun id anchors => do
    let cs ← chainsFor id anchors
    .ok (!cs.isEmpty)
  metadata := fun id anchors => do
    let cs ← chainsFor id anchors
    let cm ← firstWithMetadata (sortedByPathLen [] cs)
    .ok cm.2

def discovers (anchor : ID) (fs : List EFilter) (found expected : List ID) : Bool :=
  match verifiedCollect resolver anchor fs (found.map (fun id => some ⟨id, ["openid_provider"], none⟩)) with
  | .ok l => l.map (fun e => e.map Collected.id) == expected.map some
  | _ => false

set_option maxRecDepth 10000 in
example : discovers ta2 [] [op1, op2, op3, proxy] [op1, op2, op3, proxy] = true := by decide +kernel
set_option maxRecDepth 10000 in
example : discovers ta2 [filterAutomatic resolver [ta2]] [op1, op2, op3, proxy] [op1, op2, op3, proxy] = true := by decide +kernel
set_option maxRecDepth 10000 in
example : discovers ta2 [filterAutomatic resolver [ta2], filterScopes resolver [ta2] ["openid", "profile", "email"]] [op1, op2, op3, proxy] [op1, op3, proxy] = true := by decide +kernel
set_option maxRecDepth 10000 in
example : discovers ia1 [] [op1, op3, proxy] [op1, op3, proxy] = true := by decide +kernel
set_option maxRecDepth 10000 in
example : discovers ia1 [filterAutomatic resolver [ia1], filterScopes resolver [ia1] ["address"]] [op1, op3, proxy] [op1] = true := by decide +kernel
set_option maxRecDepth 10000 in
example : discovers ia1 [filterAutomatic resolver [ia1], filterScopes resolver [ia1] ["address"], filterGrantTypes resolver [ia1] ["refresh_token"]] [op1, op3, proxy] [] = true := by
  decide +kernel

end Oidfed.Validation
