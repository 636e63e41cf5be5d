import Verif.Spec.Publish
import Verif.Spec.EndToEnd
/-!
# A federation whose entities all publish with this library

In terms of what its operators configure: payloads, signers and authority hints. Nothing here mentions decoded statements.
-/

namespace Oidfed.Spec

/-- One authority above an entity: the place of its id among the authority hints of the entity below, its configuration, and its statement about the entity below,
each as payload and as the JWT it serves. -/
structure Authority where
  hint : Nat
  config : ESPayload
  configJwt : Jws
  about : ESPayload
  aboutJwt : Jws

/-- The way to the `k`-th authority in terms of hints. -/
def wayTo (as : List Authority) (k : Nat) : Pos := (as.take k).map Authority.hint

/-- The entities on the way, leaf first. -/
def configs (leaf : ESPayload) (as : List Authority) : List ESPayload := leaf :: as.map Authority.config

/-- The known entity types the metadata declares. -/
def declared (p : ESPayload) : List String :=
  match p.metadata with
  | none => []
  | some m => (EType.all.filter (fun t => (m.known t).isSome)).map EType.tag

/-- The entity types that count for the leaf: those asked for, or all if none in particular. -/
def typesAsked (types : List String) (p : ESPayload) : List String := if types = [] then declared p else (declared p).filter (fun t => t ∈ types)

/-- The metadata names the fetch endpoint. -/
def HasFetch (p : ESPayload) (ep : String) : Prop :=
  ep ≠ "" ∧ ∃ m f, p.metadata = some m ∧ m.known .fed = some f ∧ f.val "FederationFetchEndpoint" = some (.str ep)

/-- The payload is one that survives JSON (C110) and the JWT is what the issuer's signer makes of it. -/
structure Published (C : Crypto) (X : Reader) (signer : ID → JSigner) (p : ESPayload) (j : Jws) : Prop where
  ok : PayloadOk X.opq p
  signed : signStatement C X.K (signer p.iss) p = .ok j

/-- The payload has the keys that the entity's signer publishes. -/
def HasKeysOf (C : Crypto) (signer : ID → JSigner) (p : ESPayload) (e : ID) : Prop := ∃ ks, p.jwks = some ks ∧ (signer e).jwks C = .ok ks

/-- The `k`-th authority, above the entity `e`, does what it should. -/
structure AuthorityOk (C : Crypto) (X : Reader) (read : Jws → Option Stmt) (signer : ID → JSigner) (W : World) (A : List Anchor) (types : List String)
    (leaf : ESPayload) (as : List Authority) (k : Nat) (e : ESPayload) (a : Authority) : Prop where
  config : Published C X signer a.config a.configJwt
  about : Published C X signer a.about a.aboutJwt
  below_not_anchor : e.iss ∉ A.map Anchor.id
  hinted : (e.hints.getD [])[a.hint]? = some a.config.iss
  new : a.config.iss ∉ leaf.sub :: (as.take k).map (fun b => b.config.iss)
  own : a.config.sub = a.config.iss
  about_iss : a.about.iss = a.config.iss
  about_sub : a.about.sub = e.iss
  keys : HasKeysOf C signer a.about e.iss
  serves_config : W.ec (wayTo as (k+1)) a.config.iss = read a.configJwt
  serves_about : ∃ ep, HasFetch a.config ep ∧ W.fetch (wayTo as (k+1)) ep e.iss a.config.iss = read a.aboutJwt
  config_time : SafelyWithin a.config (W.nowEC (wayTo as (k+1)))
  about_time : SafelyWithin a.about (W.nowSub (wayTo as (k+1)))
  constraints : ∀ c, a.about.constraints = some c → PathLenOk k c ∧
    (∀ id ∈ leaf.sub :: (as.take k).map (fun b => b.config.iss), NamingOk W.host c id) ∧
    (∀ ty ∈ typesAsked types leaf ++ ((as.take k).map (fun b => declared b.config)).flatten, TypeOk c ty)

/-- The JWTs on the way. -/
def jwtsOf (leafJwt : Jws) (as : List Authority) : List Jws := leafJwt :: as.flatMap (fun a => [a.configJwt, a.aboutJwt])

/-- The keys on the way. -/
def keysOf (as : List Authority) : List JKey := as.flatMap (fun a => a.config.jwks.getD [] ++ a.about.jwks.getD [])

/-- A leaf with authorities up to a configured anchor, all of which publish with the library. -/
structure OperatedWith (C : Crypto) (X : Reader) (read : Jws → Option Stmt) (keyOf : Nat → JKey) (signer : ID → JSigner) (W : World) (A : List Anchor)
    (types : List String) (leaf : ESPayload) (leafJwt : Jws) (as : List Authority) (top : Authority) : Prop where
  leaf_published : Published C X signer leaf leafJwt
  authorities : ∀ k e a, (configs leaf as)[k]? = some e → as[k]? = some a → AuthorityOk C X read signer W A types leaf as k e a
  last : as.getLast? = some top
  anchor : ∃ ta, FirstAnchor A top.config.iss ta ∧
    ((∃ ks, ta.jwks = some ks ∧ (signer ta.id).jwks C = .ok (ks.map keyOf)) ∨ (ta.jwks = none ∧ HasKeysOf C signer top.config ta.id))

end Oidfed.Spec
