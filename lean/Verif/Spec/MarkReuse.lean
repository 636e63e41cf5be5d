import Verif.Spec.TrustMark
import Verif.Model.MarkReuse
/-!
# Trust mark objects over several uses
-/

namespace Oidfed.Spec
open Oidfed

/-- The use changes the object only by assigning to it or decoding into it; it does not ask for the mark. -/
def IsWrite : InfoUse → Prop
  | .set .. => True
  | .decode _ => True
  | _ => False

/-- The use asks for the mark in the object's JWT. -/
def AsksMark : InfoUse → Prop
  | .get => True
  | .external .. => True
  | .federation .. => True
  | _ => False

/-- Verification through an anchor has to satisfy: the object's JWT is a trust mark of the type the object names, from an issuer that the anchor allows for the type, and in order
under the keys found for that issuer and, if the anchor names an owner for the type, delegated by it. -/
def FederationAccepted (R : JWTReader) (sig : SigOracle) (nowM nowD : Time) (keysFor : ID → Option (Res Keys)) (ta : MarkAnchor) (i : Info) : Prop :=
  ∃ m keys, parseMark R i.jwt = some m ∧ m.type = i.type ∧ IssuerAllowed ta m.type m.iss ∧ keysFor m.iss = some (.ok keys) ∧
    MarkOk R sig nowM nowD keys (AMap.get ta.owners m.type) m

/-- From here on every use leaves the object's JWT as it is. -/
def JWTStays (R : JWTReader) (i : Info) (uses : List InfoUse) : Prop :=
  ∀ pre post, uses = pre ++ post → (i.run R pre).jwt = i.jwt

end Oidfed.Spec
