import Verif.Model.Metadata
/-!
# Entity statements, keys, trust anchors, trust chains (`entitystatement.go`, `trustanchor.go`, `trustchain.go`)
-/

namespace Oidfed

/-- A `jwks.JWKS` (jwks/jwks.go:15-17): `none` is a nil `Set`; otherwise the list of its keys (opaque numbers). -/
abbrev Keys := Option (List Nat)

/-- `NamingConstraints` (entitystatement.go:205-208); `permitted = none` is a nil slice. -/
structure Naming where
  permitted : Option (List String)
  excluded : List String
deriving DecidableEq, Repr

/-- `ConstraintSpecification` (entitystatement.go:198-202). -/
structure Constraints where
  maxPath : Option Int
  naming : Option Naming
  allowedTypes : Option (List String)
deriving DecidableEq, Repr

/-- `EntityStatement` with its payload (entitystatement.go:24-27, 68-87), restricted to the claims the library acts on.
`raw` identifies the signed JWT the statement was parsed from (`jwtMsg`); `none` is a nil message. -/
structure Stmt where
  iss : ID
  sub : ID
  iat : Time
  exp : Time
  jwks : Keys
  hints : List ID
  metadata : Option Metadata
  policy : Option Policies
  policyCrit : List OpName
  crit : List String
  constraints : Option Constraints
  raw : Option Nat

/-- The signature oracle: does the JWT verify under (some key of) the key list? Models `jws.Verify`
(internal/jwx/jws.go:59). Arbitrary in all theorems. -/
abbrev SigOracle := List Nat → Nat → Bool

/-- `EntityStatement.Verify` / `ParsedJWT.VerifyWithSet` (entitystatement.go:30-36, internal/jwx/jws.go:52-60): fails on a
missing message and on a nil or empty key set. -/
def Stmt.verify (sig : SigOracle) (keys : Keys) (s : Stmt) : Bool :=
  match s.raw, keys with
  | some r, some ks => !ks.isEmpty && sig ks r
  | _, _ => false

/-- `EntityStatementPayload.TimeValid` (entitystatement.go:90-92). -/
def Stmt.timeValid (now : Time) (s : Stmt) : Bool := verifyTime now (some s.iat) (some s.exp)

/-- Entity types declared by a statement (`Metadata.GuessEntityTypes` on its metadata; metadata.go:31-44). -/
def Stmt.entityTypes (s : Stmt) : List String :=
  match s.metadata with
  | none => []
  | some m => m.entityTypes

/-- `aStmt.Metadata.FederationEntity.FederationFetchEndpoint`, `""` if one of the pointers is nil
(trustresolver.go:340-341). -/
def Stmt.fetchEndpoint (s : Stmt) : String :=
  match s.metadata with
  | none => ""
  | some m => match m.known .fed with
    | none => ""
    | some f => f.str "federation_fetch_endpoint"

/-- `TrustAnchor` (trustanchor.go:8-11). -/
structure Anchor where
  id : ID
  jwks : Keys
deriving DecidableEq, Repr

/-- `TrustAnchors.EntityIDs` (trustanchor.go:17-22). -/
def anchorIDs (as : List Anchor) : List ID := as.map Anchor.id

/-- `TrustChain` (trustchain.go:16). -/
abbrev Chain := List Stmt

/-- `TrustChain.PathLen` (trustchain.go:29-42). -/
def pathLen (c : Chain) : Nat := if c.length ≤ 3 then 0 else c.length - 3

/-- The loop of `TrustChain.ExpiresAt` (trustchain.go:50-54). -/
def expLoop (exp : Time) : Chain → Time
  | [] => exp
  | s :: c => expLoop (if s.exp < exp then s.exp else exp) c

/-- `TrustChain.ExpiresAt` (trustchain.go:45-56). -/
def chainExp : Chain → Time
  | [] => Time.zero
  | s :: c => expLoop s.exp c

/-- `slices.Subtract(utils.MapKeys(critPolicies), OperatorOrder)` of trustchain.go:73-80 is empty. -/
def critOk (c : Chain) : Bool := c.all (fun s => s.policyCrit.all (fun n => operatorOrder.contains n))

/-- `TrustChain.Metadata` without the cache (trustchain.go:66-103): `none` inside `ok` is a nil `*Metadata` (returned for a
one-element chain whose statement has no metadata). -/
def chainMetadata (c : Chain) : Res (Option Metadata) :=
  match c with
  | [] => .error .error
  | [s] => .ok s.metadata
  | s :: _ =>
    if !critOk c then .error .error
    else do
      let p ← mergePolicies (c.map Stmt.policy)
      let m := s.metadata.getD Metadata.empty
      let r ← m.applyPolicy (some p)
      .ok (some r)

end Oidfed
