import Verif.Spec.MetaJSON
import Verif.Model.CollectJSON
/-!
# Which JSON values a message may have in its members

A small description language for JSON, the types of the members of each message, and what it means that a value is of a type. Nothing here decodes anything.
-/

namespace Oidfed.Spec

/-- Types of JSON values. -/
inductive JType where
  /-- any value -/
  | any
  /-- a string -/
  | text
  /-- true or false -/
  | truth
  /-- a number -/
  | number
  /-- a whole number of 64 bits -/
  | integer
  /-- an array of such values -/
  | list (s : JType)
  /-- an object whose members all have such values, whatever their names -/
  | map (s : JType)
  /-- an object in which members with these names have such values; there may be other members -/
  | record (fs : List (String × JType))
  /-- the same, but there may be no other members -/
  | exactly (fs : List (String × JType))
  /-- whatever fulfils the condition -/
  | that (p : JV → Prop)

/-- The value is of the type. Null is of every type, except where a condition says otherwise; upper and lower case are not told apart in the names of members,
except where no other members are allowed. -/
inductive OfType : JType → JV → Prop
  | null (s : JType) (h : ∀ p, s ≠ .that p) : OfType s .null
  | any (v : JV) : OfType .any v
  | text (s : String) : OfType .text (.str s)
  | truth (b : Bool) : OfType .truth (.bool b)
  | number (q : Rat) : OfType .number (.num q)
  | integer (n : Int) (h : -9223372036854775808 ≤ n ∧ n ≤ 9223372036854775807) : OfType .integer (.num n)
  | list (s : JType) (l : List JV) (h : ∀ v ∈ l, OfType s v) : OfType (.list s) (.arr l)
  | map (s : JType) (l : JObj) (h : ∀ kv ∈ l, OfType s kv.2) : OfType (.map s) (.obj l)
  | record (fs : List (String × JType)) (l : JObj) (h : ∀ kv ∈ l, ∀ f ∈ fs, SpelledAs f.1 kv.1 → OfType f.2 kv.2) : OfType (.record fs) (.obj l)
  | exactly (fs : List (String × JType)) (l : JObj) (hn : ∀ kv ∈ l, ∃ f ∈ fs, f.1 = kv.1)
      (h : ∀ kv ∈ l, ∀ f ∈ fs, SpelledAs f.1 kv.1 → OfType f.2 kv.2) : OfType (.exactly fs) (.obj l)
  | that (p : JV → Prop) (v : JV) (h : p v) : OfType (.that p) v

/-- A list of strings. -/
def texts : JType := .list .text

/-- A key set that the library for keys accepts, or null. -/
def keySet (K : KeyCodec) : JType := .that (fun v => (unmarshalKeys K v).isSome)

/-- The types of metadata attributes; the values in maps must fulfil `p`, and key sets are what the decoder for them accepts. -/
def attributeShape (opq : Opaque) (p : JV → Prop) : MKind → JType
  | .str => .text
  | .bool => .truth
  | .int => .integer
  | .strs => texts
  | .map => .map (.that p)
  | .ptr => .that (fun v => v = .null ∨ (opq .ptr v).isSome)

/-- The metadata for an entity type. -/
def typeMetadata (opq : Opaque) (p : JV → Prop) (t : EType) : JType := .record ((metaFields t).map (fun f => (f.tag, attributeShape opq p f.kind)))

/-- Metadata. -/
def metadataShape (opq : Opaque) (p : JV → Prop) : JType :=
  .record [("openid_provider", typeMetadata opq p .op), ("openid_relying_party", typeMetadata opq p .rp), ("oauth_authorization_server", typeMetadata opq p .as),
    ("oauth_client", typeMetadata opq p .client), ("oauth_resource", typeMetadata opq p .resource), ("federation_entity", typeMetadata opq p .fed)]

/-- A policy: for each attribute, for each operator, any value. -/
def policyShape : JType := .map (.map .any)

/-- Policies, for the known entity types only. -/
def policiesShape : JType :=
  .exactly [("openid_provider", policyShape), ("openid_relying_party", policyShape), ("oauth_authorization_server", policyShape),
    ("oauth_client", policyShape), ("oauth_resource", policyShape), ("federation_entity", policyShape)]

/-- Constraints. -/
def constraintsShape : JType :=
  .record [("max_path_length", .integer), ("naming_constraints", .record [("permitted", texts), ("excluded", texts)]), ("allowed_entity_types", texts)]

/-- Trust marks in statements and responses. -/
def marksShape : JType := .list (.record [("trust_mark_type", .text), ("trust_mark", .text)])

/-- An entity statement. -/
def statementShape (K : KeyCodec) (opq : Opaque) (p : JV → Prop) : JType :=
  .record [("iss", .text), ("sub", .text), ("iat", .number), ("exp", .number), ("jwks", keySet K), ("aud", .text), ("authority_hints", texts),
    ("metadata", metadataShape opq p), ("metadata_policy", policiesShape), ("constraints", constraintsShape), ("crit", texts), ("metadata_policy_crit", texts),
    ("trust_marks", marksShape), ("trust_mark_issuers", .map texts), ("trust_mark_owners", .map (.record [("sub", .text), ("jwks", keySet K)])),
    ("source_endpoint", .text), ("trust_anchor_id", .text)]

/-- A trust chain: messages that can be parsed. Null stands for the empty message. -/
def chainShape (P : String → Option Jws) : JType := .list (.that (fun v => ∃ s, (v = .str s ∨ v = .null ∧ s = "") ∧ (P s).isSome))

/-- A resolve response. -/
def responseShape (P : String → Option Jws) (opq : Opaque) (p : JV → Prop) : JType :=
  .record [("metadata", metadataShape opq p), ("trust_marks", marksShape), ("trust_chain", chainShape P)]

/-- What is said about an entity for users. -/
def uiShape : JType :=
  .record [("display_name", .text), ("description", .text), ("keywords", texts), ("logo_uri", .text), ("policy_uri", .text), ("information_uri", .text)]

/-- An entity in a collection. -/
def entityShape (P : String → Option Jws) : JType :=
  .record [("entity_id", .text), ("trust_marks", marksShape), ("trust_chain", chainShape P), ("entity_types", texts), ("ui_infos", .map uiShape)]

/-- A collection response. -/
def collectionShape (P : String → Option Jws) : JType :=
  .record [("federation_entities", .list (entityShape P)), ("next_entity_id", .text), ("last_updated", .number)]

/-- A trust mark. -/
def markShape : JType :=
  .record [("iss", .text), ("sub", .text), ("trust_mark_type", .text), ("iat", .number), ("logo_uri", .text), ("exp", .number), ("ref", .text), ("delegation", .text)]

/-- A delegation. -/
def delegationShape : JType :=
  .record [("iss", .text), ("sub", .text), ("trust_mark_type", .text), ("iat", .number), ("exp", .number), ("ref", .text)]

/-- An error response of an endpoint of the federation. -/
def httpErrorShape : JType := .record [("error", .text), ("error_description", .text), ("Status", .integer)]

/-- A stored trust mark specification. -/
def specShape : JType :=
  .record [("trust_mark_type", .text), ("lifetime", .number), ("ref", .text), ("logo_uri", .text), ("include_extra_claims_in_info", .truth), ("delegation_jwt", .text)]

/-- Maps in metadata are decoded value by value. -/
def ValueByValue (opq : Opaque) (p : JV → Prop) : Prop := ∀ v w : JV, opq .map v = some w ↔ w = v ∧ ∃ l : JObj, v = .obj l ∧ ∀ kv ∈ l, p kv.2

end Oidfed.Spec
