import Verif.Model.MetaResolver
/-!
# Anchors that say the same about a type of trust mark
-/

namespace Oidfed.Spec
open Oidfed

/-- Whom an anchor lets issue trust marks of a type; `none` if it says nothing about the type. -/
def issuersFor (ta : MarkAnchor) (type : String) : Option (List ID) := ta.issuers.bind (fun m => AMap.get m type)

/-- The same anchor, with the same keys, that says the same about trust marks of the type. What it says about other types does not matter. -/
structure SameForType (ta ta' : MarkAnchor) (type : String) : Prop where
  sub : ta'.sub = ta.sub
  jwks : ta'.jwks = ta.jwks
  issuers : issuersFor ta' type = issuersFor ta type
  owner : AMap.get ta'.owners type = AMap.get ta.owners type

/-- The trust marks of a list that are found valid for an anchor at a moment (the clock and what is known of issuers do not change meanwhile). -/
def validFor (R : JWTReader) (sig : SigOracle) (nowM nowD : Time) (keysFor : ID → Option (Res Keys)) (ta : MarkAnchor) (is : List Info) : Option (Res (List Info)) :=
  verifiedFederation R sig (fun _ => (nowM, nowD)) (fun _ => keysFor) ta 0 is

end Oidfed.Spec
