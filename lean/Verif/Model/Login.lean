import Verif.Model.AuthCode
/-!
# The authorization code flow from the issuer on (`federation.go`, `authcode.go`): which provider the user and the code are sent to
-/

namespace Oidfed

/-- `Resolve` of the default metadata resolver (metadata_resolver.go:34-40, 141-150, 206-212): the metadata of the response. A resolver of the user's is
taken to return the metadata of its response, too. -/
def Default.metadata (D : Default) (E : Env) (fuel : Nat) (p : CallPos) (q : Req) : Option (Res (Option Metadata)) :=
  (D.resolve E fuel p q).map (fun r => r.map Payload.metadata)

/-- `ResolveOPMetadata` (federation.go:130-150) for an issuer; `cache` is what `cache.Get` gives for it, `anchors` are the entity IDs of the leaf's trust anchors.
The resolver is asked only if the cache has nothing. -/
def opMetadata (D : Default) (E : Env) (fuel : Nat) (p : CallPos) (cache : ID → Res (Option OPMeta)) (anchors : List ID) (issuer : ID) :
    Option (Res (Option OPMeta)) :=
  match cache issuer with
  | .ok none => (D.metadata E fuel p (opRequest issuer anchors)).map (resolveOPMetadata (.ok none))
  | c => some (resolveOPMetadata c (.error .error))

/-- `GetAuthorizationURL` (authcode.go:125-162) for an issuer. -/
def Leaf.loginURL (f : Leaf) (D : Default) (E : Env) (fuel : Nat) (p : CallPos) (cache : ID → Res (Option OPMeta)) (anchors : List ID) (sign : Signer)
    (parse : URLParser) (now : Int) (jti : Option String) (issuer : ID) (redirectURI state scope : String) (add : AMap (List String)) : Option (Res URL) :=
  (opMetadata D E fuel p cache anchors issuer).map (fun op => f.authorizationURL sign parse now jti op redirectURI state scope add)

/-- `CodeExchange` (authcode.go:165-210) for an issuer. -/
def Leaf.exchangeCode (f : Leaf) (D : Default) (E : Env) (fuel : Nat) (p : CallPos) (cache : ID → Res (Option OPMeta)) (anchors : List ID) (sign : Signer)
    (post : String → AMap (List String) → Option JV) (now : Int) (jti : Option String) (issuer : ID) (code redirectURI : String)
    (params : Option (AMap (List String))) : Option Exchange :=
  (opMetadata D E fuel p cache anchors issuer).map (fun op => f.codeExchange sign post now jti op code redirectURI params)

end Oidfed
