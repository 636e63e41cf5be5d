import Verif.Model.TrustMark
/-!
# All claims of trust marks and delegations, and stored trust mark specifications (`trustmark.go`)

`Mark` and `Delegation` (Model/TrustMark) have the claims that matter for verification. Here are the other ones, what the issuer lists, and how the
specification of a trust mark is written and read as JSON and as YAML.

Simplifications: a YAML document is a mapping with string keys whose values have a JSON form; `JV` is used for them, so that the
numbers 5 and 5.0 are the same. Anchors, tags and merge keys are not modelled. Durations outside the range of `time.Duration` do not occur.
-/

namespace Oidfed

/-! ## What a reader sees -/

/-- `TrustMark` (trustmark.go:150-162) with all its claims. -/
structure MarkView where
  iss : String
  sub : String
  type : String
  iat : Time
  exp : Option Time
  logo : String
  ref : String
  delegation : String
  extra : AMap JV

/-- The struct after decoding (trustmark.go:177-187). -/
def readMarkView (o : JStruct) : MarkView where
  iss := strOf (o.known "iss")
  sub := strOf (o.known "sub")
  type := strOf (o.known "trust_mark_type")
  iat := timeOf (o.known "iat")
  exp := optTimeOf (o.known "exp")
  logo := strOf (o.known "logo_uri")
  ref := strOf (o.known "ref")
  delegation := strOf (o.known "delegation")
  extra := o.extra

/-- `ParseTrustMark` (trustmark.go:80-93) with `TrustMark.UnmarshalJSON` (trustmark.go:177-187): all claims. -/
def viewMark (R : JWTReader) (jwt : String) : Option MarkView :=
  match R jwt with
  | none => none
  | some c =>
    if c.typ ≠ "trust-mark+jwt" then none
    else (unmarshalObj markTags tmDec c.payload).map readMarkView

/-- `DelegationJWT` (trustmark.go:315-324) with all its claims. -/
structure DelegView where
  iss : String
  sub : String
  type : String
  iat : Time
  exp : Option Time
  ref : String
  extra : AMap JV

/-- The struct after decoding (trustmark.go:339-349). -/
def readDelegView (o : JStruct) : DelegView where
  iss := strOf (o.known "iss")
  sub := strOf (o.known "sub")
  type := strOf (o.known "trust_mark_type")
  iat := timeOf (o.known "iat")
  exp := optTimeOf (o.known "exp")
  ref := strOf (o.known "ref")
  extra := o.extra

/-- `parseDelegationJWT` (trustmark.go:189-204) with `DelegationJWT.UnmarshalJSON` (trustmark.go:339-349): all claims. -/
def viewDelegation (R : JWTReader) (jwt : String) : Option DelegView :=
  match R jwt with
  | none => none
  | some c =>
    if c.typ ≠ "trust-mark-delegation+jwt" then none
    else (unmarshalObj delegTags tmDec c.payload).map readDelegView

/-- `TrustMarkInfos.Find` (trustmark.go:46-53). -/
def findInfo (p : Info → Bool) : List Info → Option Info
  | [] => none
  | i :: l => if p i then some i else findInfo p l

/-- `TrustMarkInfos.FindByID` (trustmark.go:56-58). -/
def findInfoByID (type : String) (l : List Info) : Option Info := findInfo (fun i => i.type == type) l

/-! ## What an issuer and an owner know -/

/-- `TrustMarkIssuer.TrustMarkTypes` (trustmark.go:460-466): the keys of the map of specs. Go gives them in an arbitrary order; here it is
that of the specs. -/
def MarkIssuer.types (I : MarkIssuer) : List String := (I.specs.map (fun s => s.type)).eraseDups

/-- `NewTrustMarkOwner` (trustmark.go:527-539). -/
def newMarkOwner (id : ID) (sign : Signer) (owned : List OwnedMark) : MarkOwner := ⟨id, sign, owned.reverse⟩

/-- `TrustMarkOwner.AddTrustMark` (trustmark.go:542-544). -/
def MarkOwner.add (O : MarkOwner) (o : OwnedMark) : MarkOwner := { O with owned := o :: O.owned }

/-! ## Specifications as JSON -/

/-- Tags of `TrustMarkSpec` in JSON and in YAML (trustmark.go:381-389). -/
def specTags : List String := ["trust_mark_type", "lifetime", "ref", "logo_uri", "include_extra_claims_in_info", "delegation_jwt"]

/-- `TrustMarkSpec` as a struct; no field has `omitempty` (trustmark.go:381-389). -/
def MarkSpec.struct (s : MarkSpec) : JStruct where
  known := fun t =>
    if t = "trust_mark_type" then some (.str s.type)
    else if t = "lifetime" then some (.num (marshalDuration s.lifetime))
    else if t = "ref" then some (.str s.ref)
    else if t = "logo_uri" then some (.str s.logo)
    else if t = "include_extra_claims_in_info" then some (.bool s.includeExtra)
    else if t = "delegation_jwt" then some (.str s.delegationJWT)
    else none
  extra := s.extra

/-- `TrustMarkSpec.MarshalJSON` (trustmark.go:392-399). -/
def MarkSpec.writeJSON (s : MarkSpec) : JObj := marshalObj specTags s.struct

/-- Decoding of the fields of `TrustMarkSpec` from JSON: a duration (for which null counts as 0), a bool (null leaves it) and strings. -/
def specDec : FieldDec := fun t cur v =>
  if t = "lifetime" then
    match v with
    | .num q => some (some (.num q))
    | .null => some (some (.num 0))
    | _ => none
  else if t = "include_extra_claims_in_info" then
    match v with
    | .bool b => some (some (.bool b))
    | .null => some cur
    | _ => none
  else decString cur v

/-- A bool field read from its JSON value; a missing member leaves it false. -/
def boolOf : Option JV → Bool
  | some (.bool b) => b
  | _ => false

/-- A `DurationInSeconds` field read from its JSON value (unixtime/unixtime.go:64-71); a missing member leaves it zero. -/
def durationOf : Option JV → Int
  | some (.num q) => unmarshalDuration (float64 q)
  | _ => 0

/-- The struct after decoding, as a spec. -/
def readSpec (o : JStruct) : MarkSpec where
  type := strOf (o.known "trust_mark_type")
  lifetime := durationOf (o.known "lifetime")
  ref := strOf (o.known "ref")
  logo := strOf (o.known "logo_uri")
  extra := o.extra
  includeExtra := boolOf (o.known "include_extra_claims_in_info")
  delegationJWT := strOf (o.known "delegation_jwt")

/-- `TrustMarkSpec.UnmarshalJSON` (trustmark.go:402-413) into a zero spec. -/
def readSpecJSON (l : JObj) : Option MarkSpec := (unmarshalObj specTags specDec l).map readSpec

/-! ## Specifications as YAML -/

/-- `yamlExtraMarshalHelper` (entitystatement.go:110-123): the members for the fields, then those of `Extra`, which replace them. `yaml.v3` writes the
keys of a map in an order of its own, which does not matter for reading since no key occurs twice. -/
def writeYAML (tags : List String) (o : JStruct) : JObj := members tags o

/-- Decoding a mapping node into a struct: a member goes to the field with exactly its name. -/
def decodeYAML (tags : List String) (dec : FieldDec) : JObj → (String → Option JV) → Option (String → Option JV)
  | [], f => some f
  | (k, v) :: l, f =>
    if k ∈ tags then
      match dec k (f k) v with
      | none => none
      | some x => decodeYAML tags dec l (fun u => if u = k then x else f u)
    else decodeYAML tags dec l f

/-- Whether a key occurs twice. -/
def hasDup : JObj → Bool
  | [] => false
  | (k, _) :: l => l.any (fun kv => kv.1 == k) || hasDup l

/-- `yamlUnmarshalWithExtra` into a zero struct (entitystatement.go:154-170). `yaml.v3` refuses a mapping with a repeated key. -/
def readYAML (tags : List String) (dec : FieldDec) (l : JObj) : Option JStruct :=
  if hasDup l then none
  else match decodeYAML tags dec l (fun _ => none) with
    | none => none
    | some f => some ⟨f, l.filter (fun kv => !(tags.contains kv.1))⟩

/-- Decoding of the fields of `TrustMarkSpec` from YAML: null leaves a field; a number or bool in place of a string is taken as its
text, which is arbitrary here. -/
def specYAMLDec (text : JV → String) : FieldDec := fun t cur v =>
  if t = "lifetime" then
    match v with
    | .num q => some (some (.num q))
    | .null => some cur
    | _ => none
  else if t = "include_extra_claims_in_info" then
    match v with
    | .bool b => some (some (.bool b))
    | .null => some cur
    | _ => none
  else match v with
    | .str s => some (some (.str s))
    | .null => some cur
    | .num q => some (some (.str (text (.num q))))
    | .bool b => some (some (.str (text (.bool b))))
    | _ => none

/-- `TrustMarkSpec.MarshalYAML` (trustmark.go:416-423). -/
def MarkSpec.writeYAML (s : MarkSpec) : JObj := Oidfed.writeYAML specTags s.struct

/-- `TrustMarkSpec.UnmarshalYAML` (trustmark.go:426-437) into a zero spec. -/
def readSpecYAML (text : JV → String) (l : JObj) : Option MarkSpec := (readYAML specTags (specYAMLDec text) l).map readSpec

end Oidfed
