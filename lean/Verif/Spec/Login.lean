import Verif.Model.Login
import Verif.Spec.AuthCode
import Verif.Spec.OperatedMeta
/-!
# Which provider the user and the code are sent to
-/

namespace Oidfed.Spec

/-- The metadata has one attribute with this JSON name, and it is this string. -/
def StrAttr (em : EntityMeta) (tag s : String) : Prop := ∃ f ∈ em.fields, f.tag = tag ∧ f.val = .str s ∧ ∀ g ∈ em.fields, g.tag = tag → g = f

/-- The user is sent to this authorization endpoint, with a signed request for this issuer and no other one. -/
structure SendsUser (sign : Signer) (parse : URLParser) (issuer endpoint : String) (u : URL) : Prop where
  target : ∃ u0, parse endpoint = some u0 ∧ u.rest = u0.rest
  request : ∃ ro claims, (∀ x, ("request", x) ∈ u.query ↔ x = ro) ∧ sign "" claims = some ro ∧ OnlyMember claims "aud" (.str issuer)

/-- If the code is sent it is to this token endpoint, with a client assertion for it. -/
def SendsCode (sign : Signer) (endpoint code : String) (sent : Option (String × AMap (List String))) : Prop :=
  ∀ ep form, sent = some (ep, form) → ep = endpoint ∧ form.get "code" = some [code] ∧
    ∃ a claims, form.get "client_assertion" = some [a] ∧ sign "" claims = some a ∧ OnlyMember claims "aud" (.str endpoint)

/-- A provider's configured metadata has this issuer and these endpoints. -/
structure Configures (own : MStruct) (issuer authorization token : String) : Prop where
  issuer : own.val "Issuer" = some (.str issuer)
  authorization : own.val "AuthorizationEndpoint" = some (.str authorization)
  token : own.val "TokenEndpoint" = some (.str token)

/-- Everything this resolution can be served was published with the library, and no policy is about the issuer or the two endpoints of a provider; at the
provider, its configuration `leaf`, with the provider metadata `own`. -/
structure ProviderServed (C : Crypto) (X : Reader) (signer : ID → JSigner) (read : Jws → Option Stmt) (W : World) (issuer : ID) (leaf : ESPayload) (own : MStruct) :
    Prop where
  config : ∃ lj, Published C X signer leaf lj ∧ W.start issuer = read lj
  op : leaf.metadata.bind (fun m => m.known .op) = some own
  served : ∀ s, ServedIn W issuer s → ∃ p j, Published C X signer p j ∧ read j = some s ∧
    ∀ tag ∈ ["issuer", "authorization_endpoint", "token_endpoint"], ¬ Names [p] .op tag

end Oidfed.Spec
