import Verif.Model.CollectEntity
import Verif.Spec.MetaResolver
import Verif.Spec.Discovery
/-!
# Vocabulary for the claims of collected entities
-/

namespace Oidfed.Spec
open Oidfed

/-- The request names the claim. -/
def Named (claims : Option (List String)) (c : String) : Prop := ∃ cs, claims = some cs ∧ c ∈ cs

/-- The trust mark object has a mark of its type whose issuer the anchor allows, for which the keys of the issuer are found, and which is in order:
valid, signed with these keys, delegated by the owner of the type if there is one. `k` is its position in the entity's configuration. -/
def MarkVerified (E : Env) (D : Default) (fuel : Nat) (p : CallPos) (ta : Stmt) (k : Nat) (i : Info) : Prop :=
  ∃ m keys, parseMark E.reader i.jwt = some m ∧ m.type = i.type ∧ IssuerAllowed (E.anchorOf ta) m.type m.iss ∧
    issuerKeys E (p ++ [k]) (D.resolve E fuel (p ++ [k])) (E.anchorOf ta) m.iss = some (.ok keys) ∧
    MarkOk E.reader E.sig (E.now p k).1 (E.now p k).2 keys (AMap.get (E.claims ta).owners m.type) m

/-- `out` are the elements of `is` that are to be kept, in their order, up to what was parsed of them. -/
def KeptMarks (is out : List Info) (keep : Nat → Info → Prop) : Prop :=
  ∃ flags : List Bool, flags.length = is.length ∧ (∀ k i, is[k]? = some i → (flags[k]? = some true ↔ keep k i)) ∧
    out.map (fun i => (i.type, i.jwt)) = ((is.zip flags).filter (fun x => x.2)).map (fun x => (x.1.type, x.1.jwt))

end Oidfed.Spec
