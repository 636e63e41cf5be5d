import Verif.Model.AuthCode
import Verif.Model.Refresher
/-!
# The entity's own entity configuration (`federation.go`)
-/

namespace Oidfed

/-- `defaultEntityConfigurationLifetime` (entitystatement.go:20). -/
def defaultLifetime : Int := 86400

/-- An entry of `FederationEntity.TrustMarks`: configured type, configuration and fields of the refresher. -/
structure OwnMark where
  type : String
  cfg : RefreshConfig
  vars : RefreshVars

/-- `FederationEntity` (federation.go:20-31). `jwks`, authority hints, metadata and the trust mark claims are taken as the JSON values of the
published statement (`none`: omitted). -/
structure FedEntity where
  id : ID
  lifetime : Int
  marks : List OwnMark
  jwks : JV
  hints : Option JV
  metadata : Option JV
  issuers : Option JV
  owners : Option JV
  extra : AMap JV

/-- `NewFederationEntity` (federation.go:42-58). -/
def newFedEntity (id : ID) (hints metadata : Option JV) (jwks : JV) (lifetime : Int) (extra : AMap JV) : FedEntity where
  id := id
  lifetime := if lifetime ≤ 0 then defaultLifetime else lifetime
  marks := []
  jwks := jwks
  hints := hints
  metadata := metadata
  issuers := none
  owners := none
  extra := extra

/-- `refresh` (trustmark_refresher.go:98-154) without interruption at time `now`; `ans` is the issuer's answer. -/
def refreshNow (cfg : RefreshConfig) (now : Time) (ans : Option String) (v : RefreshVars) : Bool × RefreshVars :=
  if durSub now v.last < minute then (false, v)
  else match ans with
    | none => (false, { v with last := now })
    | some j => (true, ⟨j, (cfg.recorded j).getD Time.zero, now⟩)

/-- `TrustMarkJWT` (trustmark_refresher.go:83-95) without interruption at time `now`; the background refresh it may start comes later. Returns the JWT
unless there is an error, and the fields afterwards. -/
def trustMarkJWT (cfg : RefreshConfig) (now : Time) (ans : Option String) (v : RefreshVars) : Option String × RefreshVars :=
  if !cfg.refresh then (some v.jwt, v)
  else if v.jwt ≠ "" ∧ untilT now v.exp > cfg.minLifetime then (some v.jwt, v)
  else
    let r := refreshNow cfg now ans v
    (if r.1 then some r.2.jwt else none, r.2)

/-- The loop over the trust marks (federation.go:82-95); `ans n` is the answer of the issuer of the `n`-th mark. -/
def publishedMarks (now : Time) (ans : Nat → Option String) : Nat → List OwnMark → List (String × String)
  | _, [] => []
  | n, m :: ms =>
    match (trustMarkJWT m.cfg now (ans n) m.vars).1 with
    | none => publishedMarks now ans (n+1) ms
    | some j => (m.type, j) :: publishedMarks now ans (n+1) ms

/-- The fields of the `EntityStatementPayload` that `EntityConfigurationPayload` sets. -/
structure ECPayload where
  iss : ID
  sub : ID
  iat : Time
  exp : Time
  marks : List (String × String)

/-- `EntityConfigurationPayload` (federation.go:80-109) at time `now`. `time.Second * time.Duration(lifetime)` is an `int64` product. -/
def FedEntity.payload (f : FedEntity) (now : Time) (ans : Nat → Option String) : ECPayload where
  iss := f.id
  sub := f.id
  iat := now
  exp := (now : Int) + wrap64 (second * f.lifetime)
  marks := publishedMarks now ans 0 f.marks

/-- A `TrustMarkInfo` in JSON (trustmark.go:61-78). -/
def infoJSON (m : String × String) : JV := .obj [("trust_mark", .str m.2), ("trust_mark_type", .str m.1)]

/-- The payload as a struct for JSON (entitystatement.go:68-87, federation.go:96-108). -/
def FedEntity.struct (f : FedEntity) (p : ECPayload) : JStruct where
  known := fun t =>
    if t = "iss" then some (.str p.iss)
    else if t = "sub" then some (.str p.sub)
    else if t = "iat" then some (.num (marshalTime p.iat))
    else if t = "exp" then some (.num (marshalTime p.exp))
    else if t = "jwks" then some f.jwks
    else if t = "authority_hints" then f.hints
    else if t = "metadata" then f.metadata
    else if t = "trust_marks" then (if p.marks.isEmpty then none else some (.arr (p.marks.map infoJSON)))
    else if t = "trust_mark_issuers" then f.issuers
    else if t = "trust_mark_owners" then f.owners
    else none
  extra := f.extra

/-- `EntityConfigurationJWT` (federation.go:113-115, jwtsigning.go:37-48, 121-123). -/
def FedEntity.jwt (f : FedEntity) (sign : Signer) (now : Time) (ans : Nat → Option String) : Option String :=
  sign "entity-statement+jwt" (marshalObj entityStatementTags (f.struct (f.payload now ans)))

end Oidfed
