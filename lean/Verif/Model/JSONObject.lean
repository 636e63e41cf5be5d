import Verif.Model.Policy
/-!
# JSON objects with known and additional members (`entitystatement.go`, `sliceorsinglevalue.go`, `trustresolver.go`, `metadataPolicy.go`)

Many structs of the library have fields with JSON tags and an `Extra` map for all other members, and share two helpers for the
conversion. A struct is modelled at the JSON level: for each tag the JSON value `encoding/json` writes for that field, or none if the
field is omitted.

Assumed of `encoding/json`: map keys are written in ascending order; the members of an object are processed in order; a member
goes to the field with exactly its name, otherwise to the (first) field whose folded name equals its folded name, otherwise it is
ignored; unmarshalling an object into a `map[string]interface{}` keeps the last of several members with the same name. Strings are valid
UTF-8.
-/

namespace Oidfed

/-- JSON values. -/
inductive JV where
  | null
  | bool (b : Bool)
  | num (q : Rat)
  | str (s : String)
  | arr (l : List JV)
  | obj (l : List (String × JV))

/-- The text of a JSON object: its members in order. -/
abbrev JObj := List (String × JV)

/-- `foldRune` of `encoding/json` on the orbits of ASCII letters (which besides upper and lower case contain the long s and the Kelvin
sign). Other characters are left alone; they are never equal to one of a tag, tags being ASCII. -/
def foldChar (c : Char) : Char :=
  if 97 ≤ c.toNat ∧ c.toNat ≤ 122 then Char.ofNat (c.toNat - 32)
  else if c.toNat = 0x17F then 'S'
  else if c.toNat = 0x212A then 'K'
  else c

/-- `foldName` of `encoding/json`. -/
def foldName (s : String) : List Char := s.toList.map foldChar

/-- The field a member named `k` is decoded into. -/
def fieldFor (tags : List String) (k : String) : Option String :=
  if k ∈ tags then some k else tags.find? (fun t => foldName t == foldName k)

/-- A struct with an `Extra` map. `extra = []` stands for the nil and for the empty map. -/
structure JStruct where
  known : String → Option JV
  extra : AMap JV

/-- The members written for the fields, then the members of `Extra`, which replace them (entitystatement.go:94-108). -/
def members (tags : List String) (o : JStruct) : JObj :=
  (tags.filterMap (fun t => (o.known t).map (fun v => (t, v)))).filter (fun kv => !(o.extra.keys.contains kv.1)) ++ o.extra

/-- Insertion into a list of members sorted by name. -/
def insertMember (a : String × JV) : JObj → JObj
  | [] => [a]
  | b :: l => if a.1 < b.1 then a :: b :: l else b :: insertMember a l

/-- The members sorted by name, the order in which `encoding/json` writes a map. -/
def sortMembers : JObj → JObj
  | [] => []
  | a :: l => insertMember a (sortMembers l)

/-- Writing a struct: `extraMarshalHelper` (entitystatement.go:94-108); the map is written with sorted keys. -/
def marshalObj (tags : List String) (o : JStruct) : JObj := sortMembers (members tags o)

/-- How the value of a field changes when a member is decoded into it: tag, current value, member value; `none` is an error. -/
abbrev FieldDec := String → Option JV → JV → Option (Option JV)

/-- Decoding the fields: `json.Unmarshal(data, target)` (entitystatement.go:137). -/
def decodeKnown (tags : List String) (dec : FieldDec) : JObj → (String → Option JV) → Option (String → Option JV)
  | [], f => some f
  | (k, v) :: l, f =>
    match fieldFor tags k with
    | none => decodeKnown tags dec l f
    | some t =>
      match dec t (f t) v with
      | none => none
      | some x => decodeKnown tags dec l (fun u => if u = t then x else f u)

/-- The object as a map: of several members with the same name the last one counts (entitystatement.go:140-143). -/
def objMap : JObj → AMap JV
  | [] => []
  | (k, v) :: l => if l.any (fun kv => kv.1 == k) then objMap l else (k, v) :: objMap l

/-- `unmarshalWithExtra` into a zero struct (entitystatement.go:136-153): all members whose name is not a tag end up in `Extra`. -/
def unmarshalObj (tags : List String) (dec : FieldDec) (l : JObj) : Option JStruct :=
  match decodeKnown tags dec l (fun _ => none) with
  | none => none
  | some f => some ⟨f, (objMap l).filter (fun kv => !(tags.contains kv.1))⟩

/-- The tags of `EntityStatementPayload` (entitystatement.go:68-87). -/
def entityStatementTags : List String :=
  ["iss", "sub", "iat", "exp", "jwks", "aud", "authority_hints", "metadata", "metadata_policy", "constraints", "crit",
   "metadata_policy_crit", "trust_marks", "trust_mark_issuers", "trust_mark_owners", "source_endpoint", "trust_anchor_id"]

/-- Decoding a Go string field: null leaves it, anything but a string is an error. -/
def decString (cur : Option JV) : JV → Option (Option JV)
  | .str s => some (some (.str s))
  | .null => some cur
  | _ => none

/-! ## Resolve responses -/

/-- `ResolveResponse` (trustresolver.go:41-48), its own claims as JSON values; `aud = ""` is not written. -/
structure ResolveResp where
  iss : String
  sub : String
  iat : Rat
  exp : Rat
  aud : String
  payload : JStruct

/-- Tags of `ResolveResponsePayload` (trustresolver.go:81-86). -/
def resolvePayloadTags : List String := ["metadata", "trust_marks", "trust_chain"]

/-- The additional claims (trustresolver.go:57-76). -/
def ResolveResp.additional (r : ResolveResp) : JObj :=
  [("iss", .str r.iss), ("sub", .str r.sub), ("iat", .num r.iat), ("exp", .num r.exp)] ++
    (if r.aud = "" then [] else [("aud", .str r.aud)])

/-- `ResolveResponse.MarshalJSON` (trustresolver.go:52-78). The two object texts are glued together with a comma; if the
payload is the empty object the result starts with `{,`, which is not JSON, and reading it back at line 77 fails (`none`). Otherwise
the concatenated members are read as a map, `Extra` is written over it once more, and the map is written with sorted keys. -/
def ResolveResp.marshal (r : ResolveResp) : Option JObj :=
  match marshalObj resolvePayloadTags r.payload with
  | [] => none
  | m =>
    let all := objMap (m ++ r.additional)
    some (sortMembers (all.filter (fun kv => !(r.payload.extra.keys.contains kv.1)) ++ r.payload.extra))

/-- Unmarshalling a `ResolveResponse` (used at metadata_resolver.go:190-193): the type has no `UnmarshalJSON` of its own, so the one of the
embedded `ResolveResponsePayload` (trustresolver.go:101-111) is promoted and used, and the outer fields keep their zero values. -/
def ResolveResp.unmarshal (dec : FieldDec) (l : JObj) : Option ResolveResp :=
  match unmarshalObj resolvePayloadTags dec l with
  | none => none
  | some p => some ⟨"", "", 0, 0, "", p⟩

/-! ## Metadata policies -/

/-- Tags of `MetadataPolicies` (metadataPolicy.go:15-20). -/
def policyTags : List String :=
  ["openid_provider", "openid_relying_party", "oauth_authorization_server", "oauth_client", "oauth_resource", "federation_entity"]

/-- `MetadataPolicies.UnmarshalJSON` (metadataPolicy.go:43-67). The additional members were decoded into `interface{}` and have type
`map[string]interface{}` (or another JSON type), never `MetadataPolicy`, so the type assertion at line 57 fails for each. -/
def unmarshalPolicies (dec : FieldDec) (l : JObj) : Option JStruct :=
  match unmarshalObj policyTags dec l with
  | none => none
  | some o => if o.extra.isEmpty then some o else none

/-! ## Slice or single value -/

/-- `SliceOrSingleValue[string].MarshalJSON` (sliceorsinglevalue.go:30-35); `none` is the nil slice. -/
def marshalSlice : Option (List String) → JV
  | none => .null
  | some [s] => .str s
  | some l => .arr (l.map .str)

/-- `json.Unmarshal` into a `[]string` element by element: null leaves the zero string. -/
def decStrings : List JV → Option (List String)
  | [] => some []
  | .str s :: l => (decStrings l).map (s :: ·)
  | .null :: l => (decStrings l).map ("" :: ·)
  | _ :: _ => none

/-- `SliceOrSingleValue[string].UnmarshalJSON` (sliceorsinglevalue.go:14-27): first tried as a single string, which succeeds for null
without setting it. -/
def unmarshalSlice : JV → Option (Option (List String))
  | .str s => some (some [s])
  | .null => some (some [""])
  | .arr l => (decStrings l).map some
  | _ => none

end Oidfed
