import Verif.Spec.OperatedMeta
import Verif.Spec.ComplianceChain
import Verif.Spec.MarkJws
import Verif.Spec.MetaResolver
import Verif.Spec.Chains
import Verif.Model.MarkClaims
/-!
# Trust marks in a federation whose entities publish with this library
-/

namespace Oidfed.Spec

/-- The trust mark claims of a statement are those in its JWT, no trust mark of it was looked at before, and parsing the JWT again reads it again. -/
structure ReadsClaims (E : Env) (X : Reader) (msgOf : Nat → Jws) : Prop where
  fresh : ∀ s, ∀ i ∈ (E.claims s).marks, i.cached = none
  claims : ∀ s n q, s.raw = some n → ESPayload.read X.K X.opq (msgOf n).payload = some q → E.claims s = q.toClaims X.N
  parse : ∀ n, E.parse n = if verifyType (msgOf n) "entity-statement+jwt" then X.decode (msgOf n) else none

/-- The anchor lets the entity issue marks of the type: it configures no issuers for the type, or this one among others. -/
def LetsIssue (ta : ESPayload) (type : String) (iss : ID) : Prop := ∀ l, AMap.get ta.issuers type = some l → iss ∈ l.getD []

/-- Everybody who asks for the configuration of the anchor gets what it published, or nothing. -/
def AnchorServes (E : Env) (read : Jws → Option Stmt) (ta : ID) (j : Jws) : Prop := ∀ p pos s, (E.world p).ec pos ta = some s → read j = some s

/-- The anchors `ts`, with the configurations they published, which everybody who asks gets. `K` and `J` are the keys and the JWTs for which numbers are known. -/
structure AnchorsPublish (C : Crypto) (X : Reader) (read : Jws → Option Stmt) (signer : ID → JSigner) (E : Env) (K : List JKey) (J : List Jws)
    (ts : List (ESPayload × Jws)) : Prop where
  published : ∀ t ∈ ts, Published C X signer t.1 t.2
  own : ∀ t ∈ ts, t.1.sub = t.1.iss
  jwts : ∀ t ∈ ts, t.2 ∈ J
  keys : ∀ t ∈ ts, ∀ k ∈ t.1.jwks.getD [], k ∈ K
  serves : ∀ t ∈ ts, AnchorServes E read t.1.iss t.2

/-- The identifiers of the anchors. -/
def publishedIDs (ts : List (ESPayload × Jws)) : List ID := ts.map (fun t => t.1.iss)

/-- The entity resolves to one of the anchors at this point: it and its authorities publish with the library, its metadata complies with the
policies on the way, and the resolution finishes. -/
structure ResolvesTo (C : Crypto) (X : Reader) (read : Jws → Option Stmt) (keyOf : Nat → JKey) (signer : ID → JSigner) (E : Env) (p : CallPos) (tas : List ID)
    (types : List String) (e : ESPayload) (j : Jws) (as : List Authority) (top : Authority) : Prop where
  operated : OperatedWith C X read keyOf signer (E.world p) (tas.map (fun a => ⟨a, none⟩)) types e j as top
  complies : ∃ v, FollowsConfigured X.N types e (onTheWay e as top) v
  nonempty : e.iss ≠ ""
  served : (E.world p).start e.iss = read j
  finishes : ∃ cs, (⟨tas.map (fun a => ⟨a, none⟩), e.iss, types⟩ : Resolver).validChains (E.world p) E.depth = .ok (some cs)

/-- The issuer can be found: it is the anchor, whose configuration has its keys, or another entity that resolves to the anchor at this point and whose configuration
has its keys. `K` and `J` are the keys and the JWTs for which numbers are known. -/
def IssuerFound (C : Crypto) (X : Reader) (read : Jws → Option Stmt) (keyOf : Nat → JKey) (signer : ID → JSigner) (E : Env) (p : CallPos) (tp : ESPayload)
    (K : List JKey) (J : List Jws) (iss : ID) : Prop :=
  (iss = tp.iss ∧ HasKeysOf C signer tp iss) ∨
  (iss ≠ tp.iss ∧ ∃ ip ij as top, ip.iss = iss ∧ HasKeysOf C signer ip iss ∧ ResolvesTo C X read keyOf signer E p [tp.iss] [] ip ij as top ∧
    (∀ k ∈ ip.jwks.getD [] ++ keysOf as, k ∈ K) ∧ ∀ j ∈ jwtsOf ij as, j ∈ J)

/-- The trust mark was issued with the library: by an issuer with this signer, according to a spec whose additional claims keep apart from those of trust marks, for
a lifetime of `l` (0 for a mark that does not expire), and it is used while it is valid. -/
structure Issued (C : Crypto) (signer : ID → JSigner) (ser : Jws → String) (I : MarkIssuer) (s : MarkSpec) (now : Time) (type sub : String) (custom : List Int)
    (l : Int) (info : Info) (used : Time) : Prop where
  sign : I.sign = signerOf C (signer I.id) ser
  spec : I.spec type = some s
  issued : I.issue now type sub custom = some info
  extra_keys : s.extra.WF
  extra : ∀ k ∈ s.extra.keys, ∀ t ∈ markTags, Apart t k
  lifetime : Lifetime s.lifetime custom l
  range : InRange now ∧ InRange (now + l)
  valid : now + 2000 ≤ used ∧ (l = 0 ∨ used ≤ now + l - 2000)

/-- The delegation in the spec was made with the library by the owner, for the issuer, and it is used while it is valid. -/
structure Delegated (C : Crypto) (signer : ID → JSigner) (ser : Jws → String) (O : MarkOwner) (s : MarkSpec) (type : String) (iss : ID) (used : Time) : Prop where
  sign : O.sign = signerOf C (signer O.id) ser
  nonempty : s.delegationJWT ≠ ""
  made : ∃ o now custom l, O.spec type = some o ∧ O.delegate now type iss custom = some s.delegationJWT ∧ o.extra.WF ∧
    (∀ k ∈ o.extra.keys, ∀ t ∈ delegTags, Apart t k) ∧ Lifetime o.lifetime custom l ∧ InRange now ∧ InRange (now + l) ∧
    now + 2000 ≤ used ∧ (o.lifetime = 0 ∨ used ≤ now + l - 2000)

/-- If the anchor lists an owner for the type, then with the keys of that owner, who made the delegation. -/
def OwnerOk (C : Crypto) (signer : ID → JSigner) (ser : Jws → String) (tp : ESPayload) (K : List JKey) (s : MarkSpec) (type : String) (iss : ID) (used : Time) : Prop :=
  ∀ o, AMap.get tp.owners type = some o → ∃ O ks, O.id = o.id ∧ o.jwks = some ks ∧ (signer O.id).jwks C = .ok ks ∧ (∀ k ∈ ks, k ∈ K) ∧
    Delegated C signer ser O s type iss used

/-- The `k`-th trust mark of an entity's configuration, resolved at `p`, is one that the anchor's configuration accepts: issued with the library by an issuer that can be
found and that the anchor lets issue marks of the type, valid, and with a delegation if the anchor lists an owner. -/
def GoodMark (C : Crypto) (X : Reader) (read : Jws → Option Stmt) (ser : Jws → String) (keyOf : Nat → JKey) (signer : ID → JSigner) (E : Env) (tp : ESPayload)
    (K : List JKey) (J : List Jws) (p : CallPos) (k : Nat) (type jwt : String) : Prop :=
  ∃ I s now sub custom l info, Issued C signer ser I s now type sub custom l info (E.now p k).1 ∧ jwt = info.jwt ∧ LetsIssue tp type I.id ∧
    IssuerFound C X read keyOf signer E (p ++ [k]) tp K J I.id ∧ OwnerOk C signer ser tp K s type I.id (E.now p k).2

end Oidfed.Spec
