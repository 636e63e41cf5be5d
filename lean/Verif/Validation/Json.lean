import Verif.Validation.Vectors
/-!
# The library's own tests of JSON encoding and decoding, run on the model

Generated by `validation/gen_vectors.py` from `metadata_test.go` and `entitystatement_test.go`: the JSON text is decoded, the result is encoded again and has to be the same JSON with all members in the same
order, and the attributes marked as set have to be those the test lists. These are tests of the model, not proofs of properties.
-/

namespace Oidfed.Validation
open Oidfed

mutual
/-- Equality of JSON, the order of members included. -/
def sameJson : JV → JV → Bool
  | .null, .null => true
  | .bool a, .bool b => a == b
  | .num a, .num b => a == b
  | .str a, .str b => a == b
  | .arr a, .arr b => sameList a b
  | .obj a, .obj b => sameMembers a b
  | _, _ => false
def sameList : List JV → List JV → Bool
  | [], [] => true
  | v :: l, w :: m => sameJson v w && sameList l m
  | _, _ => false
def sameMembers : List (String × JV) → List (String × JV) → Bool
  | [], [] => true
  | (k, v) :: l, (k', v') :: m => k == k' && sameJson v v' && sameMembers l m
  | _, _ => false
end

def sameSet (a b : List String) : Bool := a.all b.contains && b.all a.contains

/-- The same JSON is written again, and exactly the given attributes are marked as set; for entity types without an entry there is no metadata. -/
def metadataPasses (data : JObj) (wasSet : List (String × List String)) : Bool :=
  match readMetadata (fun _ v => some v) data with
  | none => false
  | some m => sameJson (metadataJV m) (.obj data) && EType.all.all (fun t =>
      match m.known t, wasSet.lookup t.tag with
      | none, none => true
      | some s, some l => sameSet s.wasSet l
      | _, _ => false)

/-- No statement in these tests has keys. -/
def noKeys : KeyCodec := ⟨fun _ => .null, fun _ => none⟩

def statementPasses (data : JObj) : Bool :=
  match ESPayload.read noKeys (fun _ v => some v) data with
  | none => false
  | some p => sameMembers (p.write noKeys) data

/-! empty -/
set_option maxRecDepth 100000 in
example : metadataPasses [] [] = true := by decide +kernel

/-! only federation -/
set_option maxRecDepth 100000 in
example : metadataPasses [("federation_entity", .obj [("contacts", .arr [.str "contact@federation.endpoint"]), ("federation_fetch_endpoint", .str "https://federation.endpoint/fetch"), ("federation_list_endpoint", .str "https://federation.endpoint/list"), ("federation_resolve_endpoint", .str "https://federation.endpoint/resolve"), ("federation_trust_mark_status_endpoint", .str "https://federation.endpoint/trustmarks"), ("organization_name", .str "Test Organization")])] [("federation_entity", ["FederationFetchEndpoint", "FederationListEndpoint", "FederationResolveEndpoint", "FederationTrustMarkStatusEndpoint", "OrganizationName", "Contacts"])] = true := by decide +kernel

/-! federation + op -/
set_option maxRecDepth 100000 in
example : metadataPasses [("federation_entity", .obj [("contacts", .arr [.str "contact@op.example.com"]), ("organization_name", .str "Test OP Org")]), ("openid_provider", .obj [("authorization_endpoint", .str "https://op.example.com/authorization"), ("client_registration_types_supported", .arr [.str "automatic"]), ("code_challenge_methods_supported", .arr [.str "S256"]), ("grant_types_supported", .arr [.str "authorization_code", .str "refresh_token"]), ("id_token_signed_response_alg_values_supported", .arr [.str "ES256", .str "ES512"]), ("introspection_endpoint", .str "https://op.example.com/introspect"), ("issuer", .str "https://op.example.com"), ("jwks_uri", .str "https://op.example.com/jwks"), ("organization_name", .str "Test OP Org"), ("request_signed_response_alg_values_supported", .arr [.str "ES256", .str "ES512"]), ("response_types_supported", .arr [.str "code"]), ("revocation_endpoint", .str "https://op.example.com/revoke"), ("scopes_supported", .arr [.str "openid", .str "profile", .str "email", .str "offline_access"]), ("subject_types_supported", .null), ("token_endpoint", .str "https://op.example.com/token"), ("userinfo_endpoint", .str "https://op.example.com/userinfo"), ("userinfo_signed_response_alg_values_supported", .arr [.str "ES256", .str "ES512"])])] [("openid_provider", ["Issuer", "AuthorizationEndpoint", "TokenEndpoint", "UserinfoEndpoint", "ScopesSupported", "ResponseTypesSupported", "GrantTypesSupported", "IDTokenSignedResponseAlgValuesSupported", "UserinfoSignedResponseAlgValuesSupported", "RequestSignedResponseAlgValuesSupported", "RevocationEndpoint", "IntrospectionEndpoint", "CodeChallengeMethodsSupported", "ClientRegistrationTypesSupported", "OrganizationName", "JWKSURI"]), ("federation_entity", ["OrganizationName", "Contacts"])] = true := by decide +kernel

/-! federation + rp -/
set_option maxRecDepth 100000 in
example : metadataPasses [("federation_entity", .obj [("contacts", .arr [.str "contact@rp.example.org"]), ("organization_name", .str "test rp org")]), ("openid_relying_party", .obj [("application_type", .str "web"), ("client_name", .str "test rp"), ("client_registration_types", .arr [.str "automatic"]), ("client_uri", .str "https://rp.example.org"), ("contacts", .arr [.str "contact@rp.example.org"]), ("grant_types", .arr [.str "authorization_code"]), ("jwks_uri", .str "https://rp.example.org/jwks"), ("organization_name", .str "test rp org"), ("policy_uri", .str "https://rp.example.org/policy"), ("redirect_uris", .arr [.str "https://rp.example.org/redirect"]), ("response_types", .arr [.str "code"]), ("scope", .str "openid profile email"), ("tos_uri", .str "https://rp.example.org/tos")])] [("openid_relying_party", ["Scope", "RedirectURIS", "ResponseTypes", "GrantTypes", "ApplicationType", "Contacts", "ClientName", "ClientURI", "PolicyURI", "TOSURI", "JWKSURI", "OrganizationName", "ClientRegistrationTypes"]), ("federation_entity", ["OrganizationName", "Contacts"])] = true := by decide +kernel

/-! op extra fields -/
set_option maxRecDepth 100000 in
example : metadataPasses [("openid_provider", .obj [("authorization_endpoint", .str "https://op.example.com/auth"), ("client_registration_types_supported", .null), ("foo", .str "bar"), ("issuer", .str "https://op.example.com"), ("response_types_supported", .null), ("slice", .arr [.str "two", .str "values"]), ("subject_types_supported", .null), ("token_endpoint", .str "https://op.example.com/token")])] [("openid_provider", ["Issuer", "AuthorizationEndpoint", "TokenEndpoint", "Extra", "foo", "slice"])] = true := by decide +kernel

/-! rp extra fields -/
set_option maxRecDepth 100000 in
example : metadataPasses [("openid_relying_party", .obj [("client_registration_types", .null), ("foo", .str "bar"), ("slice", .arr [.str "two", .str "values"])])] [("openid_relying_party", ["Extra", "foo", "slice"])] = true := by decide +kernel

/-! as extra fields -/
set_option maxRecDepth 100000 in
example : metadataPasses [("oauth_authorization_server", .obj [("authorization_endpoint", .str "https://as.example.com/auth"), ("client_registration_types_supported", .null), ("foo", .str "bar"), ("issuer", .str "https://as.example.com"), ("response_types_supported", .null), ("slice", .arr [.str "two", .str "values"]), ("subject_types_supported", .null), ("token_endpoint", .str "https://as.example.com/token")])] [("oauth_authorization_server", ["Issuer", "AuthorizationEndpoint", "TokenEndpoint", "Extra", "foo", "slice"])] = true := by decide +kernel

/-! client extra fields -/
set_option maxRecDepth 100000 in
example : metadataPasses [("oauth_client", .obj [("client_registration_types", .null), ("foo", .str "bar"), ("slice", .arr [.str "two", .str "values"])])] [("oauth_client", ["Extra", "foo", "slice"])] = true := by decide +kernel

/-! pr extra fields -/
set_option maxRecDepth 100000 in
example : metadataPasses [("oauth_resource", .obj [("foo", .str "bar"), ("resource_encryption_alg_values_supported", .null), ("resource_encryption_enc_values_supported", .null), ("slice", .arr [.str "two", .str "values"])])] [("oauth_resource", ["Extra", "foo", "slice"])] = true := by decide +kernel

/-! federation extra fields -/
set_option maxRecDepth 100000 in
example : metadataPasses [("federation_entity", .obj [("foo", .str "bar"), ("slice", .arr [.str "two", .str "values"])])] [("federation_entity", ["Extra", "foo", "slice"])] = true := by decide +kernel

/-! extra metadata -/
set_option maxRecDepth 100000 in
example : metadataPasses [("another-entity", .obj [("a-key", .str "a-value")]), ("federation_entity", .obj [("federation_fetch_endpoint", .str "https://federation.endpoint/fetch")])] [("federation_entity", ["FederationFetchEndpoint"])] = true := by decide +kernel

/-! empty -/
set_option maxRecDepth 100000 in
example : statementPasses [("exp", .num 0), ("iat", .num 0), ("iss", .str ""), ("jwks", .null), ("sub", .str "")] = true := by decide +kernel

/-! normal fields -/
set_option maxRecDepth 100000 in
example : statementPasses [("aud", .str "aud"), ("authority_hints", .arr [.str "hint1", .str "hint2"]), ("constraints", .obj [("max_path_length", .num 2), ("naming_constraints", .obj [("permitted", .arr [.str "foo"])]), ("allowed_entity_types", .arr [.str "openid_provider"])]), ("crit", .arr [.str "jti"]), ("exp", .num 200), ("iat", .num 100), ("iss", .str "issuer"), ("jwks", .null), ("metadata", .obj [("federation_entity", .obj [("organization_name", .str "organization"), ("organization_uri", .str "https://somewhere.com")]), ("openid_relying_party", .obj [("application_type", .str "web"), ("client_registration_types", .arr [.str "automatic"]), ("contacts", .arr [.str "contact@email.com"]), ("grant_types", .arr [.str "refresh_token", .str "authorization_code"]), ("id_token_signed_response_alg", .str "ES512"), ("redirect_uris", .arr [.str "https://redirect.to.somewher"]), ("response_types", .arr [.str "code"]), ("scope", .str "some scope")])]), ("metadata_policy", .obj [("federation_entity", .obj [("contacts", .obj [("add", .str "value")])])]), ("metadata_policy_crit", .arr [.str "remove"]), ("sub", .str "subject")] = true := by decide +kernel

/-! extra fields -/
set_option maxRecDepth 100000 in
example : statementPasses [("exp", .num 200), ("extra-field", .str "value"), ("foo", .arr [.str "bar"]), ("iat", .num 100), ("iss", .str "issuer"), ("jwks", .null), ("sub", .str "subject")] = true := by decide +kernel

/-! A statement with nothing in it -/
set_option maxRecDepth 100000 in
example : sameMembers (ESPayload.write noKeys ⟨"", "", Time.zero, Time.zero, none, "", none, none, none, none, none, none, none, [], [], "", "", []⟩)
    [("exp", .num 0), ("iat", .num 0), ("iss", .str ""), ("jwks", .null), ("sub", .str "")] = true := by decide +kernel

end Oidfed.Validation
