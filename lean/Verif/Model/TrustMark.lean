import Verif.Model.JSONObject
import Verif.Model.Unixtime
import Verif.Model.Statement
/-!
# Trust marks and delegations (`trustmark.go`)
-/

namespace Oidfed

/-! ## JWTs -/

/-- What `jwx.Parse` finds in a compact JWS: the `typ` header, the members of the JSON object in the payload, and a number that identifies the
signed message for the signature oracle. -/
structure JWTContent where
  typ : String
  payload : JObj
  raw : Nat

/-- `jwx.Parse` followed by decoding the payload as a JSON object (internal/jwx/jws.go:42-48); `none` if one of them fails.
Arbitrary in all theorems. -/
abbrev JWTReader := String → Option JWTContent

/-- `ParsedJWT.VerifyWithSet` (internal/jwx/jws.go:51-59). -/
def verifyRaw (sig : SigOracle) (keys : Keys) (raw : Option Nat) : Bool :=
  match raw, keys with
  | some r, some ks => !ks.isEmpty && sig ks r
  | _, _ => false

/-! ## Reading -/

/-- A Go string field read from its JSON value; a missing member leaves it empty. -/
def strOf : Option JV → String
  | some (.str s) => s
  | _ => ""

/-- A `Unixtime` field read from its JSON value (unixtime/unixtime.go:18-26); a missing member leaves the zero time. -/
def timeOf : Option JV → Time
  | some (.num q) => unmarshalTime (float64 q)
  | _ => Time.zero

/-- A `*Unixtime` field read from its JSON value; a missing member leaves nil. -/
def optTimeOf : Option JV → Option Time
  | some (.num q) => some (unmarshalTime (float64 q))
  | _ => none

/-- Decoding of the fields of `TrustMark` and `DelegationJWT`: strings, the time `iat` (for which null counts as 0), the optional time
`exp` (for which null counts as missing). -/
def tmDec : FieldDec := fun t cur v =>
  if t = "iat" then
    match v with
    | .num q => some (some (.num q))
    | .null => some (some (.num 0))
    | _ => none
  else if t = "exp" then
    match v with
    | .num q => some (some (.num q))
    | .null => some none
    | _ => none
  else decString cur v

/-- Tags of `TrustMark` (trustmark.go:150-162). -/
def markTags : List String := ["iss", "sub", "trust_mark_type", "iat", "logo_uri", "exp", "ref", "delegation"]

/-- Tags of `DelegationJWT` (trustmark.go:315-324). -/
def delegTags : List String := ["iss", "sub", "trust_mark_type", "iat", "exp", "ref"]

/-- `DelegationJWT` (trustmark.go:315-324) without `ref` and `Extra`. -/
structure Delegation where
  iss : ID
  sub : ID
  type : String
  iat : Time
  exp : Option Time
  raw : Option Nat
deriving DecidableEq

/-- `TrustMark` (trustmark.go:150-162) without `logo_uri`, `ref` and `Extra`; `deleg` is the cached delegation. -/
structure Mark where
  iss : ID
  sub : ID
  type : String
  iat : Time
  exp : Option Time
  delegationJWT : String
  raw : Option Nat
  deleg : Option Delegation
deriving DecidableEq

/-- The struct after decoding, as a delegation. -/
def readDelegation (raw : Nat) (o : JStruct) : Delegation where
  iss := strOf (o.known "iss")
  sub := strOf (o.known "sub")
  type := strOf (o.known "trust_mark_type")
  iat := timeOf (o.known "iat")
  exp := optTimeOf (o.known "exp")
  raw := some raw

/-- The struct after decoding, as a trust mark. -/
def readMark (raw : Nat) (o : JStruct) : Mark where
  iss := strOf (o.known "iss")
  sub := strOf (o.known "sub")
  type := strOf (o.known "trust_mark_type")
  iat := timeOf (o.known "iat")
  exp := optTimeOf (o.known "exp")
  delegationJWT := strOf (o.known "delegation")
  raw := some raw
  deleg := none

/-- `ParseTrustMark` (trustmark.go:80-93). -/
def parseMark (R : JWTReader) (jwt : String) : Option Mark :=
  match R jwt with
  | none => none
  | some c =>
    if c.typ ≠ "trust-mark+jwt" then none
    else (unmarshalObj markTags tmDec c.payload).map (readMark c.raw)

/-- `parseDelegationJWT` (trustmark.go:189-204). -/
def parseDelegation (R : JWTReader) (jwt : String) : Option Delegation :=
  match R jwt with
  | none => none
  | some c =>
    if c.typ ≠ "trust-mark-delegation+jwt" then none
    else (unmarshalObj delegTags tmDec c.payload).map (readDelegation c.raw)

/-- `TrustMark.Delegation` (trustmark.go:207-216): an error (`none`) or the delegation if there is one, and the mark with its cache
filled. -/
def Mark.getDelegation (R : JWTReader) (m : Mark) : Option (Option Delegation) × Mark :=
  match m.deleg with
  | some d => (some (some d), m)
  | none =>
    if m.delegationJWT = "" then (some none, m)
    else match parseDelegation R m.delegationJWT with
      | none => (none, m)
      | some d => (some (some d), { m with deleg := some d })

/-! ## Verifying -/

/-- `TrustMarkOwnerSpec` (entitystatement.go:217-220). -/
structure Owner where
  id : ID
  jwks : Keys

/-- `DelegationJWT.VerifyExternal` (trustmark.go:365-371); `now` is the clock reading. -/
def Delegation.verifyExternal (sig : SigOracle) (now : Time) (keys : Keys) (d : Delegation) : Bool :=
  verifyTime now (some d.iat) d.exp && verifyRaw sig keys d.raw

/-- `TrustMark.VerifyExternal` (trustmark.go:283-312) with the clock readings for the mark and for the delegation. Returns whether there was no
error, and the mark with its cache. -/
def Mark.verifyExternal (R : JWTReader) (sig : SigOracle) (nowM nowD : Time) (keys : Keys) (owners : List Owner) (m : Mark) :
    Bool × Mark :=
  if !verifyTime nowM (some m.iat) m.exp then (false, m)
  else if !verifyRaw sig keys m.raw then (false, m)
  else match owners with
    | [] => (true, m)
    | o :: _ =>
      match m.getDelegation R with
      | (none, m') => (false, m')
      | (some none, m') => (false, m')
      | (some (some d), m') =>
        if d.type ≠ m.type then (false, m')
        else if d.sub ≠ m.iss then (false, m')
        else if d.iss ≠ o.id then (false, m')
        else (d.verifyExternal sig nowD o.jwks, m')

/-- `TrustMarkInfo` (trustmark.go:61-66). -/
structure Info where
  type : String
  jwt : String
  extra : AMap JV
  cached : Option Mark

/-- `TrustMarkInfo.TrustMark` (trustmark.go:110-119): parses the JWT unless a parsed mark is cached. A mark put there by the issuer has
no message and is replaced. -/
def Info.trustMark (R : JWTReader) (i : Info) : Option Mark × Info :=
  match i.cached with
  | some m =>
    if m.raw.isSome then (some m, i)
    else match parseMark R i.jwt with
      | none => (none, i)
      | some m => (some m, { i with cached := some m })
  | none =>
    match parseMark R i.jwt with
    | none => (none, i)
    | some m => (some m, { i with cached := some m })

/-- `TrustMarkInfo.VerifyExternal` (trustmark.go:135-147). -/
def Info.verifyExternal (R : JWTReader) (sig : SigOracle) (nowM nowD : Time) (keys : Keys) (owners : List Owner) (i : Info) :
    Bool × Info :=
  match i.trustMark R with
  | (none, i') => (false, i')
  | (some m, i') =>
    if m.type ≠ i.type then (false, i')
    else
      match m.verifyExternal R sig nowM nowD keys owners with
      | (b, m') => (b, { i' with cached := some m' })

/-- `TrustMarkInfos.VerifiedExternal` (trustmark.go:33-43); the clock readings for the `n`-th mark are `now n`. -/
def verifiedExternal (R : JWTReader) (sig : SigOracle) (now : Nat → Time × Time) (keys : Keys) (owners : List Owner) :
    Nat → List Info → List Info
  | _, [] => []
  | n, i :: is =>
    match i.verifyExternal R sig (now n).1 (now n).2 keys owners with
    | (true, i') => i' :: verifiedExternal R sig now keys owners (n+1) is
    | (false, _) => verifiedExternal R sig now keys owners (n+1) is

/-- The claims of an entity statement that matter for trust marks (entitystatement.go:68-87): of a trust anchor its subject, keys, allowed issuers
(`none` is a nil map) and owners. -/
structure MarkAnchor where
  sub : ID
  jwks : Keys
  issuers : Option (AMap (List ID))
  owners : AMap Owner

/-- The issuer check of `TrustMark.VerifyFederation` (trustmark.go:262-268). -/
def issuerAllowed (ta : MarkAnchor) (type : String) (iss : ID) : Bool :=
  match ta.issuers with
  | none => true
  | some m => match AMap.get m type with
    | none => true
    | some l => l.contains iss

/-- The owners passed on by `TrustMark.VerifyFederation` (trustmark.go:273-278). -/
def ownersFor (ta : MarkAnchor) (type : String) : List Owner :=
  match AMap.get ta.owners type with
  | none => []
  | some o => [o]

/-- `TrustMark.VerifyFederation` (trustmark.go:261-279). `keysFor` stands for `getTrustMarkIssuerJWKS`: it may fail or panic, and `none` is a
computation that does not finish. The outcome is whether there was no error. -/
def Mark.verifyFederation (R : JWTReader) (sig : SigOracle) (nowM nowD : Time) (keysFor : ID → Option (Res Keys)) (ta : MarkAnchor)
    (m : Mark) : Option (Res (Bool × Mark)) :=
  if !issuerAllowed ta m.type m.iss then some (.ok (false, m))
  else match keysFor m.iss with
    | none => none
    | some (.error .panic) => some (.error .panic)
    | some (.error .error) => some (.ok (false, m))
    | some (.ok keys) => some (.ok (m.verifyExternal R sig nowM nowD keys (ownersFor ta m.type)))

/-- `TrustMarkInfo.VerifyFederation` (trustmark.go:122-131). -/
def Info.verifyFederation (R : JWTReader) (sig : SigOracle) (nowM nowD : Time) (keysFor : ID → Option (Res Keys)) (ta : MarkAnchor)
    (i : Info) : Option (Res (Bool × Info)) :=
  match i.trustMark R with
  | (none, i') => some (.ok (false, i'))
  | (some m, i') =>
    if m.type ≠ i.type then some (.ok (false, i'))
    else match m.verifyFederation R sig nowM nowD keysFor ta with
      | none => none
      | some (.error f) => some (.error f)
      | some (.ok (b, m')) => some (.ok (b, { i' with cached := some m' }))

/-- `TrustMarkInfos.VerifiedFederation` (trustmark.go:22-29); `keysFor n` and `now n` belong to the `n`-th mark. -/
def verifiedFederation (R : JWTReader) (sig : SigOracle) (now : Nat → Time × Time) (keysFor : Nat → ID → Option (Res Keys))
    (ta : MarkAnchor) : Nat → List Info → Option (Res (List Info))
  | _, [] => some (.ok [])
  | n, i :: is =>
    match i.verifyFederation R sig (now n).1 (now n).2 (keysFor n) ta with
    | none => none
    | some (.error f) => some (.error f)
    | some (.ok (b, i')) =>
      match verifiedFederation R sig now keysFor ta (n+1) is with
      | none => none
      | some (.error f) => some (.error f)
      | some (.ok r) => some (.ok (if b then i' :: r else r))

/-- `DelegationJWT.VerifyFederation` (trustmark.go:352-362). -/
def Delegation.verifyFederation (sig : SigOracle) (now : Time) (ta : MarkAnchor) (d : Delegation) : Bool :=
  if !verifyTime now (some d.iat) d.exp then false
  else match AMap.get ta.owners d.type with
    | none => false
    | some o => verifyRaw sig o.jwks d.raw

/-! ## Issuing -/

/-- A signer (jwtsigning.go:37-48, internal/jwx/jws.go:73-101): header type and payload to a JWT; `none` is an error. Arbitrary in the definitions;
what is assumed of it is stated in the theorems. -/
abbrev Signer := String → JObj → Option String

/-- `TrustMarkSpec` (trustmark.go:381-389). -/
structure MarkSpec where
  type : String
  lifetime : Int
  ref : String
  logo : String
  extra : AMap JV
  includeExtra : Bool
  delegationJWT : String

/-- `TrustMarkIssuer` (trustmark.go:374-378); the specs in the order in which they were given to `NewTrustMarkIssuer` and
`AddTrustMark` (trustmark.go:440-457), latest first. Putting a spec into the map replaces an earlier one with the same type. -/
structure MarkIssuer where
  id : ID
  sign : Signer
  specs : List MarkSpec

/-- `NewTrustMarkIssuer` (trustmark.go:440-452). -/
def newMarkIssuer (id : ID) (sign : Signer) (specs : List MarkSpec) : MarkIssuer := ⟨id, sign, specs.reverse⟩

/-- `TrustMarkIssuer.AddTrustMark` (trustmark.go:455-457). -/
def MarkIssuer.add (I : MarkIssuer) (s : MarkSpec) : MarkIssuer := { I with specs := s :: I.specs }

/-- Looking up a spec in the map (trustmark.go:473). -/
def MarkIssuer.spec (I : MarkIssuer) (type : String) : Option MarkSpec := I.specs.find? (fun s => s.type == type)

/-- A string field with `omitempty`. -/
def omitEmpty (s : String) : Option JV := if s = "" then none else some (.str s)

/-- The struct signed by `IssueTrustMark` (trustmark.go:478-494) at the JSON level. -/
def markStruct (iss sub type : String) (iat : Time) (exp : Option Time) (logo ref delegation : String) (extra : AMap JV) : JStruct where
  known := fun t =>
    if t = "iss" then some (.str iss)
    else if t = "sub" then some (.str sub)
    else if t = "trust_mark_type" then some (.str type)
    else if t = "iat" then some (.num (marshalTime iat))
    else if t = "exp" then exp.map (fun e => .num (marshalTime e))
    else if t = "logo_uri" then omitEmpty logo
    else if t = "ref" then omitEmpty ref
    else if t = "delegation" then omitEmpty delegation
    else none
  extra := extra

/-- The lifetime used (trustmark.go:488-491, 562-565): the first custom one, else the configured one. -/
def lifetimeOf (configured : Int) (custom : List Int) : Int :=
  match custom with
  | [] => configured
  | l :: _ => l

/-- The expiry of an issued trust mark (trustmark.go:488-494). -/
def MarkSpec.expiry (s : MarkSpec) (now : Time) (custom : List Int) : Option Time :=
  let lf := lifetimeOf s.lifetime custom
  if lf ≠ 0 then some (now + lf) else none

/-- What `IssueTrustMark` signs (trustmark.go:478-495), written by `TrustMark.MarshalJSON` (trustmark.go:166-173). -/
def MarkIssuer.payload (I : MarkIssuer) (s : MarkSpec) (now : Time) (sub : String) (custom : List Int) : JObj :=
  marshalObj markTags (markStruct I.id sub s.type now (s.expiry now custom) s.logo s.ref s.delegationJWT s.extra)

/-- `TrustMarkIssuer.IssueTrustMark` (trustmark.go:470-509) at time `now`. -/
def MarkIssuer.issue (I : MarkIssuer) (now : Time) (type sub : String) (custom : List Int) : Option Info :=
  match I.spec type with
  | none => none
  | some s =>
    match I.sign "trust-mark+jwt" (I.payload s now sub custom) with
    | none => none
    | some jwt => some {
        type := s.type
        jwt := jwt
        extra := if s.includeExtra then s.extra else []
        cached := some ⟨I.id, sub, s.type, now, s.expiry now custom, s.delegationJWT, none, none⟩ }

/-- `OwnedTrustMark` (trustmark.go:519-524). -/
structure OwnedMark where
  id : String
  lifetime : Int
  ref : String
  extra : AMap JV

/-- `TrustMarkOwner` (trustmark.go:512-516); owned marks latest first, as for the issuer (trustmark.go:527-544). -/
structure MarkOwner where
  id : ID
  sign : Signer
  owned : List OwnedMark

/-- Looking up an owned mark in the map (trustmark.go:549). -/
def MarkOwner.spec (O : MarkOwner) (type : String) : Option OwnedMark := O.owned.find? (fun s => s.id == type)

/-- The struct signed by `TrustMarkOwner.DelegationJWT` (trustmark.go:554-568) at the JSON level. -/
def delegStruct (iss sub type : String) (iat : Time) (exp : Option Time) (ref : String) (extra : AMap JV) : JStruct where
  known := fun t =>
    if t = "iss" then some (.str iss)
    else if t = "sub" then some (.str sub)
    else if t = "trust_mark_type" then some (.str type)
    else if t = "iat" then some (.num (marshalTime iat))
    else if t = "exp" then exp.map (fun e => .num (marshalTime e))
    else if t = "ref" then omitEmpty ref
    else none
  extra := extra

/-- The expiry of a delegation (trustmark.go:562-568). Whether there is one depends on the configured lifetime, not on the one
used. -/
def OwnedMark.expiry (s : OwnedMark) (now : Time) (custom : List Int) : Option Time :=
  let lf := lifetimeOf s.lifetime custom
  if s.lifetime ≠ 0 then some (now + lf) else none

/-- What `TrustMarkOwner.DelegationJWT` signs (trustmark.go:554-569), written by `DelegationJWT.MarshalJSON` (trustmark.go:328-335). -/
def MarkOwner.payload (O : MarkOwner) (s : OwnedMark) (now : Time) (sub : String) (custom : List Int) : JObj :=
  marshalObj delegTags (delegStruct O.id sub s.id now (s.expiry now custom) s.ref s.extra)

/-- `TrustMarkOwner.DelegationJWT` (trustmark.go:548-570) at time `now`. -/
def MarkOwner.delegate (O : MarkOwner) (now : Time) (type sub : String) (custom : List Int) : Option String :=
  match O.spec type with
  | none => none
  | some s => O.sign "trust-mark-delegation+jwt" (O.payload s now sub custom)

end Oidfed
