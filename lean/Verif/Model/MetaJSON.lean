import Verif.Model.JSONObject
import Verif.Model.Metadata
/-!
# Reading and writing entity metadata as JSON (`metadata_generated.go`, `metadata.go`)

The four generated structs with their fields, the pointer structs they are decoded through, the presence flags, and the
JSON form of `Metadata`.

Several members can be for the same field or entity type, because their names are the same or differ in upper and lower case only; then a later one is
decoded into what an earlier one has left.

Simplifications: the elements of a slice are decoded into zero values, whatever was in the slice before; the number literal of an `int64` is written without fraction and exponent; the decoding of maps and
key sets is an arbitrary function.
-/

namespace Oidfed

/-- The Go types of metadata fields: `string`, `bool`, `int64`, `[]string`, maps, `*jwks.JWKS`. -/
inductive MKind where
  | str | bool | int | strs | map | ptr
deriving DecidableEq, Repr

/-- An exported field of a metadata struct: Go name, name in the JSON tag, type, and whether the tag says `omitempty`. -/
structure MField where
  name : String
  tag : String
  kind : MKind
  omits : Bool
deriving DecidableEq, Repr

/-- The fields of `FederationEntityMetadata` (metadata_generated.go:14-33), without `wasSet` and `Extra`. -/
def fedFields : List MField :=
  [⟨"FederationFetchEndpoint", "federation_fetch_endpoint", .str, true⟩,
   ⟨"FederationListEndpoint", "federation_list_endpoint", .str, true⟩,
   ⟨"FederationResolveEndpoint", "federation_resolve_endpoint", .str, true⟩,
   ⟨"FederationTrustMarkStatusEndpoint", "federation_trust_mark_status_endpoint", .str, true⟩,
   ⟨"FederationTrustMarkListEndpoint", "federation_trust_mark_list_endpoint", .str, true⟩,
   ⟨"FederationTrustMarkEndpoint", "federation_trust_mark_endpoint", .str, true⟩,
   ⟨"FederationHistoricalLKeysEndpoint", "federation_historical_keys_endpoint", .str, true⟩,
   ⟨"DisplayName", "display_name", .str, true⟩,
   ⟨"Description", "description", .str, true⟩,
   ⟨"Keywords", "keywords", .strs, true⟩,
   ⟨"Contacts", "contacts", .strs, true⟩,
   ⟨"LogoURI", "logo_uri", .str, true⟩,
   ⟨"PolicyURI", "policy_uri", .str, true⟩,
   ⟨"InformationURI", "information_uri", .str, true⟩,
   ⟨"OrganizationName", "organization_name", .str, true⟩,
   ⟨"OrganizationURI", "organization_uri", .str, true⟩]

/-- The fields of `federationEntityMetadataWithPtrs` (metadata_generated.go:35-53), without `wasSet` and `Extra`. -/
def fedPtrFields : List MField :=
  [⟨"FederationFetchEndpoint", "federation_fetch_endpoint", .str, true⟩,
   ⟨"FederationListEndpoint", "federation_list_endpoint", .str, true⟩,
   ⟨"FederationResolveEndpoint", "federation_resolve_endpoint", .str, true⟩,
   ⟨"FederationTrustMarkStatusEndpoint", "federation_trust_mark_status_endpoint", .str, true⟩,
   ⟨"FederationTrustMarkListEndpoint", "federation_trust_mark_list_endpoint", .str, true⟩,
   ⟨"FederationTrustMarkEndpoint", "federation_trust_mark_endpoint", .str, true⟩,
   ⟨"FederationHistoricalLKeysEndpoint", "federation_historical_keys_endpoint", .str, true⟩,
   ⟨"DisplayName", "display_name", .str, true⟩,
   ⟨"Description", "description", .str, true⟩,
   ⟨"Keywords", "keywords", .strs, true⟩,
   ⟨"Contacts", "contacts", .strs, true⟩,
   ⟨"LogoURI", "logo_uri", .str, true⟩,
   ⟨"PolicyURI", "policy_uri", .str, true⟩,
   ⟨"InformationURI", "information_uri", .str, true⟩,
   ⟨"OrganizationName", "organization_name", .str, true⟩,
   ⟨"OrganizationURI", "organization_uri", .str, true⟩]

/-- The fields of `OpenIDRelyingPartyMetadata` (metadata_generated.go:159-230), without `wasSet` and `Extra`. -/
def rpFields : List MField :=
  [⟨"Scope", "scope", .str, true⟩,
   ⟨"RedirectURIS", "redirect_uris", .strs, true⟩,
   ⟨"ResponseTypes", "response_types", .strs, true⟩,
   ⟨"GrantTypes", "grant_types", .strs, true⟩,
   ⟨"ApplicationType", "application_type", .str, true⟩,
   ⟨"Contacts", "contacts", .strs, true⟩,
   ⟨"ClientName", "client_name", .str, true⟩,
   ⟨"LogoURI", "logo_uri", .str, true⟩,
   ⟨"ClientURI", "client_uri", .str, true⟩,
   ⟨"PolicyURI", "policy_uri", .str, true⟩,
   ⟨"TOSURI", "tos_uri", .str, true⟩,
   ⟨"SectorIdentifierURI", "sector_identifier_uri", .str, true⟩,
   ⟨"SubjectType", "subject_type", .str, true⟩,
   ⟨"IDTokenSignedResponseAlg", "id_token_signed_response_alg", .str, true⟩,
   ⟨"IDTokenEncryptedResponseAlg", "id_token_encrypted_response_alg", .str, true⟩,
   ⟨"IDTokenEncryptedResponseEnc", "id_token_encrypted_response_enc", .str, true⟩,
   ⟨"UserinfoSignedResponseAlg", "userinfo_signed_response_alg", .str, true⟩,
   ⟨"UserinfoEncryptedResponseAlg", "userinfo_encrypted_response_alg", .str, true⟩,
   ⟨"UserinfoEncryptedResponseEnc", "userinfo_encrypted_response_enc", .str, true⟩,
   ⟨"RequestSignedResponseAlg", "request_signed_response_alg", .str, true⟩,
   ⟨"RequestEncryptedResponseAlg", "request_encrypted_response_alg", .str, true⟩,
   ⟨"RequestEncryptedResponseEnc", "request_encrypted_response_enc", .str, true⟩,
   ⟨"TokenEndpointAuthMethod", "token_endpoint_auth_method", .str, true⟩,
   ⟨"TokenEndpointAuthSigningAlg", "token_endpoint_auth_signing_alg", .str, true⟩,
   ⟨"DefaultMaxAge", "default_max_age", .int, true⟩,
   ⟨"RequireAuthTime", "require_auth_time", .bool, true⟩,
   ⟨"DefaultACRValues", "default_acr_values", .strs, true⟩,
   ⟨"InitiateLoginURI", "initiate_login_uri", .str, true⟩,
   ⟨"RequestURIs", "request_uris", .strs, true⟩,
   ⟨"SoftwareID", "software_id", .str, true⟩,
   ⟨"SoftwareVersion", "software_version", .str, true⟩,
   ⟨"ClientID", "client_id", .str, true⟩,
   ⟨"ClientSecret", "client_secret", .str, true⟩,
   ⟨"ClientIDIssuedAt", "client_id_issued_at", .int, true⟩,
   ⟨"ClientSecretExpiresAt", "client_secret_expires_at", .int, true⟩,
   ⟨"RegistrationAccessToken", "registration_access_token", .str, true⟩,
   ⟨"RegistrationClientURI", "registration_client_uri", .str, true⟩,
   ⟨"ClaimsRedirectURIs", "claims_redirect_uris", .strs, true⟩,
   ⟨"NFVTokenSignedResponseAlg", "nfv_token_signed_response_alg", .str, true⟩,
   ⟨"NFVTokenEncryptedResponseAlg", "nfv_token_encrypted_response_alg", .str, true⟩,
   ⟨"NFVTokenEncryptedResponseEnc", "nfv_token_encrypted_response_enc", .str, true⟩,
   ⟨"TLSClientCertificateBoundAccessTokens", "tls_client_certificate_bound_access_tokens", .bool, true⟩,
   ⟨"TLSClientAuthSubjectDN", "tls_client_auth_subject_dn", .str, true⟩,
   ⟨"TLSClientAuthSANDNS", "tls_client_auth_san_dns", .str, true⟩,
   ⟨"TLSClientAuthSANURI", "tls_client_auth_san_uri", .str, true⟩,
   ⟨"TLSClientAuthSANIP", "tls_client_auth_san_ip", .str, true⟩,
   ⟨"TLSClientAuthSANEMAIL", "tls_client_auth_san_email", .str, true⟩,
   ⟨"RequireSignedRequestObject", "require_signed_request_object", .bool, true⟩,
   ⟨"RequirePushedAuthorizationRequests", "require_pushed_authorization_requests", .bool, true⟩,
   ⟨"IntrospectionSignedResponseAlg", "introspection_signed_response_alg", .str, true⟩,
   ⟨"IntrospectionEncryptedResponseAlg", "introspection_encrypted_response_alg", .str, true⟩,
   ⟨"IntrospectionEncryptedResponseEnc", "introspection_encrypted_response_enc", .str, true⟩,
   ⟨"FrontchannelLogoutURI", "frontchannel_logout_uri", .str, true⟩,
   ⟨"FrontchannelLogoutSessionRequired", "frontchannel_logout_session_required", .bool, true⟩,
   ⟨"BackchannelLogoutURI", "backchannel_logout_uri", .str, true⟩,
   ⟨"BackchannelLogoutSessionRequired", "backchannel_logout_session_required", .bool, true⟩,
   ⟨"PostLogoutRedirectURIs", "post_logout_redirect_uris", .strs, true⟩,
   ⟨"AuthorizationDetailsTypes", "authorization_details_types", .strs, true⟩,
   ⟨"ClientRegistrationTypes", "client_registration_types", .strs, false⟩,
   ⟨"SignedJWKSURI", "signed_jwks_uri", .str, true⟩,
   ⟨"JWKSURI", "jwks_uri", .str, true⟩,
   ⟨"JWKS", "jwks", .ptr, true⟩,
   ⟨"DisplayName", "display_name", .str, true⟩,
   ⟨"Description", "description", .str, true⟩,
   ⟨"Keywords", "keywords", .strs, true⟩,
   ⟨"InformationURI", "information_uri", .str, true⟩,
   ⟨"OrganizationName", "organization_name", .str, true⟩,
   ⟨"OrganizationURI", "organization_uri", .str, true⟩]

/-- The fields of `openIDRelyingPartyMetadataWithPtrs` (metadata_generated.go:232-302), without `wasSet` and `Extra`. -/
def rpPtrFields : List MField :=
  [⟨"Scope", "scope", .str, true⟩,
   ⟨"RedirectURIS", "redirect_uris", .strs, true⟩,
   ⟨"ResponseTypes", "response_types", .strs, true⟩,
   ⟨"GrantTypes", "grant_types", .strs, true⟩,
   ⟨"ApplicationType", "application_type", .str, true⟩,
   ⟨"Contacts", "contacts", .strs, true⟩,
   ⟨"ClientName", "client_name", .str, true⟩,
   ⟨"LogoURI", "logo_uri", .str, true⟩,
   ⟨"ClientURI", "client_uri", .str, true⟩,
   ⟨"PolicyURI", "policy_uri", .str, true⟩,
   ⟨"TOSURI", "tos_uri", .str, true⟩,
   ⟨"SectorIdentifierURI", "sector_identifier_uri", .str, true⟩,
   ⟨"SubjectType", "subject_type", .str, true⟩,
   ⟨"IDTokenSignedResponseAlg", "id_token_signed_response_alg", .str, true⟩,
   ⟨"IDTokenEncryptedResponseAlg", "id_token_encrypted_response_alg", .str, true⟩,
   ⟨"IDTokenEncryptedResponseEnc", "id_token_encrypted_response_enc", .str, true⟩,
   ⟨"UserinfoSignedResponseAlg", "userinfo_signed_response_alg", .str, true⟩,
   ⟨"UserinfoEncryptedResponseAlg", "userinfo_encrypted_response_alg", .str, true⟩,
   ⟨"UserinfoEncryptedResponseEnc", "userinfo_encrypted_response_enc", .str, true⟩,
   ⟨"RequestSignedResponseAlg", "request_signed_response_alg", .str, true⟩,
   ⟨"RequestEncryptedResponseAlg", "request_encrypted_response_alg", .str, true⟩,
   ⟨"RequestEncryptedResponseEnc", "request_encrypted_response_enc", .str, true⟩,
   ⟨"TokenEndpointAuthMethod", "token_endpoint_auth_method", .str, true⟩,
   ⟨"TokenEndpointAuthSigningAlg", "token_endpoint_auth_signing_alg", .str, true⟩,
   ⟨"DefaultMaxAge", "default_max_age", .int, true⟩,
   ⟨"RequireAuthTime", "require_auth_time", .bool, true⟩,
   ⟨"DefaultACRValues", "default_acr_values", .strs, true⟩,
   ⟨"InitiateLoginURI", "initiate_login_uri", .str, true⟩,
   ⟨"RequestURIs", "request_uris", .strs, true⟩,
   ⟨"SoftwareID", "software_id", .str, true⟩,
   ⟨"SoftwareVersion", "software_version", .str, true⟩,
   ⟨"ClientID", "client_id", .str, true⟩,
   ⟨"ClientSecret", "client_secret", .str, true⟩,
   ⟨"ClientIDIssuedAt", "client_id_issued_at", .int, true⟩,
   ⟨"ClientSecretExpiresAt", "client_secret_expires_at", .int, true⟩,
   ⟨"RegistrationAccessToken", "registration_access_token", .str, true⟩,
   ⟨"RegistrationClientURI", "registration_client_uri", .str, true⟩,
   ⟨"ClaimsRedirectURIs", "claims_redirect_uris", .strs, true⟩,
   ⟨"NFVTokenSignedResponseAlg", "nfv_token_signed_response_alg", .str, true⟩,
   ⟨"NFVTokenEncryptedResponseAlg", "nfv_token_encrypted_response_alg", .str, true⟩,
   ⟨"NFVTokenEncryptedResponseEnc", "nfv_token_encrypted_response_enc", .str, true⟩,
   ⟨"TLSClientCertificateBoundAccessTokens", "tls_client_certificate_bound_access_tokens", .bool, true⟩,
   ⟨"TLSClientAuthSubjectDN", "tls_client_auth_subject_dn", .str, true⟩,
   ⟨"TLSClientAuthSANDNS", "tls_client_auth_san_dns", .str, true⟩,
   ⟨"TLSClientAuthSANURI", "tls_client_auth_san_uri", .str, true⟩,
   ⟨"TLSClientAuthSANIP", "tls_client_auth_san_ip", .str, true⟩,
   ⟨"TLSClientAuthSANEMAIL", "tls_client_auth_san_email", .str, true⟩,
   ⟨"RequireSignedRequestObject", "require_signed_request_object", .bool, true⟩,
   ⟨"RequirePushedAuthorizationRequests", "require_pushed_authorization_requests", .bool, true⟩,
   ⟨"IntrospectionSignedResponseAlg", "introspection_signed_response_alg", .str, true⟩,
   ⟨"IntrospectionEncryptedResponseAlg", "introspection_encrypted_response_alg", .str, true⟩,
   ⟨"IntrospectionEncryptedResponseEnc", "introspection_encrypted_response_enc", .str, true⟩,
   ⟨"FrontchannelLogoutURI", "frontchannel_logout_uri", .str, true⟩,
   ⟨"FrontchannelLogoutSessionRequired", "frontchannel_logout_session_required", .bool, true⟩,
   ⟨"BackchannelLogoutURI", "backchannel_logout_uri", .str, true⟩,
   ⟨"BackchannelLogoutSessionRequired", "backchannel_logout_session_required", .bool, true⟩,
   ⟨"PostLogoutRedirectURIs", "post_logout_redirect_uris", .strs, true⟩,
   ⟨"AuthorizationDetailsTypes", "authorization_details_types", .strs, true⟩,
   ⟨"ClientRegistrationTypes", "client_registration_types", .strs, false⟩,
   ⟨"SignedJWKSURI", "signed_jwks_uri", .str, true⟩,
   ⟨"JWKSURI", "jwks_uri", .str, true⟩,
   ⟨"JWKS", "jwks", .ptr, true⟩,
   ⟨"DisplayName", "display_name", .str, true⟩,
   ⟨"Description", "description", .str, true⟩,
   ⟨"Keywords", "keywords", .strs, true⟩,
   ⟨"InformationURI", "information_uri", .str, true⟩,
   ⟨"OrganizationName", "organization_name", .str, true⟩,
   ⟨"OrganizationURI", "organization_uri", .str, true⟩]

/-- The fields of `OpenIDProviderMetadata` (metadata_generated.go:408-491), without `wasSet` and `Extra`. -/
def opFields : List MField :=
  [⟨"Issuer", "issuer", .str, false⟩,
   ⟨"AuthorizationEndpoint", "authorization_endpoint", .str, false⟩,
   ⟨"TokenEndpoint", "token_endpoint", .str, false⟩,
   ⟨"UserinfoEndpoint", "userinfo_endpoint", .str, true⟩,
   ⟨"RegistrationEndpoint", "registration_endpoint", .str, true⟩,
   ⟨"ScopesSupported", "scopes_supported", .strs, true⟩,
   ⟨"ResponseTypesSupported", "response_types_supported", .strs, false⟩,
   ⟨"ResponseModesSupported", "response_modes_supported", .strs, true⟩,
   ⟨"GrantTypesSupported", "grant_types_supported", .strs, true⟩,
   ⟨"ACRValuesSupported", "acr_values_supported", .strs, true⟩,
   ⟨"SubjectTypesSupported", "subject_types_supported", .strs, false⟩,
   ⟨"IDTokenSignedResponseAlgValuesSupported", "id_token_signed_response_alg_values_supported", .strs, true⟩,
   ⟨"IDTokenEncryptedResponseAlgValuesSupported", "id_token_encrypted_response_alg_values_supported", .strs, true⟩,
   ⟨"IDTokenEncryptedResponseEncValuesSupported", "id_token_encrypted_response_enc_values_supported", .strs, true⟩,
   ⟨"UserinfoSignedResponseAlgValuesSupported", "userinfo_signed_response_alg_values_supported", .strs, true⟩,
   ⟨"UserinfoEncryptedResponseAlgValuesSupported", "userinfo_encrypted_response_alg_values_supported", .strs, true⟩,
   ⟨"UserinfoEncryptedResponseEncValuesSupported", "userinfo_encrypted_response_enc_values_supported", .strs, true⟩,
   ⟨"RequestSignedResponseAlgValuesSupported", "request_signed_response_alg_values_supported", .strs, true⟩,
   ⟨"RequestEncryptedResponseAlgValuesSupported", "request_encrypted_response_alg_values_supported", .strs, true⟩,
   ⟨"RequestEncryptedResponseEncValuesSupported", "request_encrypted_response_enc_values_supported", .strs, true⟩,
   ⟨"TokenEndpointAuthMethodsSupported", "token_endpoint_auth_methods_supported", .strs, true⟩,
   ⟨"TokenEndpointAuthSigningAlgValuesSupported", "token_endpoint_auth_signing_alg_values_supported", .strs, true⟩,
   ⟨"DisplayValuesSupported", "display_values_supported", .strs, true⟩,
   ⟨"ClaimsSupported", "claims_supported", .strs, true⟩,
   ⟨"ServiceDocumentation", "service_documentation", .str, true⟩,
   ⟨"ClaimsLocalesSupported", "claims_locales_supported", .strs, true⟩,
   ⟨"UILocalesSupported", "ui_locales_supported", .strs, true⟩,
   ⟨"ClaimsParameterSupported", "claims_parameter_supported", .bool, true⟩,
   ⟨"RequestParameterSupported", "request_parameter_supported", .bool, true⟩,
   ⟨"RequestURIParameterSupported", "request_uri_parameter_supported", .bool, true⟩,
   ⟨"RequireRequestURIRegistration", "require_request_uri_registration", .bool, true⟩,
   ⟨"OPPolicyURI", "op_policy_uri", .str, true⟩,
   ⟨"OPTOSURI", "op_tos_uri", .str, true⟩,
   ⟨"RevocationEndpoint", "revocation_endpoint", .str, true⟩,
   ⟨"RevocationEndpointAuthMethodsSupported", "revocation_endpoint_auth_methods_supported", .strs, true⟩,
   ⟨"RevocationEndpointAuthSigningAlgValuesSupported", "revocation_endpoint_auth_signing_alg_values_supported", .strs, true⟩,
   ⟨"IntrospectionEndpoint", "introspection_endpoint", .str, true⟩,
   ⟨"IntrospectionEndpointAuthMethodsSupported", "introspection_endpoint_auth_methods_supported", .strs, true⟩,
   ⟨"IntrospectionEndpointAuthSigningAlgValuesSupported", "introspection_endpoint_auth_signing_alg_values_supported", .strs, true⟩,
   ⟨"IntrospectionSigningAlgValuesSupported", "introspection_signing_alg_values_supported", .strs, true⟩,
   ⟨"IntrospectionEncryptionAlgValuesSupported", "introspection_encryption_alg_values_supported", .strs, true⟩,
   ⟨"IntrospectionEncryptionEncValuesSupported", "introspection_encryption_enc_values_supported", .strs, true⟩,
   ⟨"CodeChallengeMethodsSupported", "code_challenge_methods_supported", .strs, true⟩,
   ⟨"SignedMetadata", "signed_metadata", .str, true⟩,
   ⟨"DeviceAuthorizationEndpoint", "device_authorization_endpoint", .str, true⟩,
   ⟨"TLSClientCertificateBoundAccessTokens", "tls_client_certificate_bound_access_tokens", .bool, true⟩,
   ⟨"MTLSEndpointAliases", "mtls_endpoint_aliases", .map, true⟩,
   ⟨"NFVTokenSigningAlgValuesSupported", "nfv_token_signing_alg_values_supported", .strs, true⟩,
   ⟨"NFVTokenEncryptionAlgValuesSupported", "nfv_token_encryption_alg_values_supported", .strs, true⟩,
   ⟨"NFVTokenEncryptionEncValuesSupported", "nfv_token_encryption_enc_values_supported", .strs, true⟩,
   ⟨"RequireSignedRequestObject", "require_signed_request_object", .bool, true⟩,
   ⟨"PushedAuthorizationRequestEndpoint", "pushed_authorization_request_endpoint", .str, true⟩,
   ⟨"RequirePushedAuthorizationRequests", "require_pushed_authorization_requests", .bool, true⟩,
   ⟨"AuthorizationResponseIssParameterSupported", "authorization_response_iss_parameter_supported", .bool, true⟩,
   ⟨"CheckSessionIFrame", "check_session_iframe", .str, true⟩,
   ⟨"FrontchannelLogoutSupported", "frontchannel_logout_supported", .bool, true⟩,
   ⟨"BackchannelLogoutSupported", "backchannel_logout_supported", .bool, true⟩,
   ⟨"BackchannelLogoutSessionSupported", "backchannel_logout_session_supported", .bool, true⟩,
   ⟨"EndSessionEndpoint", "end_session_endpoint", .str, true⟩,
   ⟨"BackchannelTokenDeliveryModesSupported", "backchannel_token_delivery_modes_supported", .strs, true⟩,
   ⟨"BackchannelAuthenticationEndpoint", "backchannel_authentication_endpoint", .str, true⟩,
   ⟨"BackchannelAuthenticationRequestSigningAlgValuesSupported", "backchannel_authentication_request_signing_alg_values_supported", .strs, true⟩,
   ⟨"BackchannelUserCodeParameterSupported", "backchannel_user_code_parameter_supported", .bool, true⟩,
   ⟨"AuthorizationDetailsTypesSupported", "authorization_details_types_supported", .strs, true⟩,
   ⟨"ClientRegistrationTypesSupported", "client_registration_types_supported", .strs, false⟩,
   ⟨"FederationRegistrationEndpoint", "federation_registration_endpoint", .str, true⟩,
   ⟨"RequestAuthenticationMethodsSupported", "request_authentication_methods_supported", .map, true⟩,
   ⟨"RequestAuthenticationSigningAlgValuesSupported", "request_authentication_signing_alg_values_supported", .strs, true⟩,
   ⟨"SignedJWKSURI", "signed_jwks_uri", .str, true⟩,
   ⟨"JWKSURI", "jwks_uri", .str, true⟩,
   ⟨"JWKS", "jwks", .ptr, true⟩,
   ⟨"DisplayName", "display_name", .str, true⟩,
   ⟨"Description", "description", .str, true⟩,
   ⟨"Keywords", "keywords", .strs, true⟩,
   ⟨"Contacts", "contacts", .strs, true⟩,
   ⟨"LogoURI", "logo_uri", .str, true⟩,
   ⟨"PolicyURI", "policy_uri", .str, true⟩,
   ⟨"InformationURI", "information_uri", .str, true⟩,
   ⟨"OrganizationName", "organization_name", .str, true⟩,
   ⟨"OrganizationURI", "organization_uri", .str, true⟩]

/-- The fields of `openIDProviderMetadataWithPtrs` (metadata_generated.go:493-575), without `wasSet` and `Extra`. -/
def opPtrFields : List MField :=
  [⟨"Issuer", "issuer", .str, false⟩,
   ⟨"AuthorizationEndpoint", "authorization_endpoint", .str, false⟩,
   ⟨"TokenEndpoint", "token_endpoint", .str, false⟩,
   ⟨"UserinfoEndpoint", "userinfo_endpoint", .str, true⟩,
   ⟨"RegistrationEndpoint", "registration_endpoint", .str, true⟩,
   ⟨"ScopesSupported", "scopes_supported", .strs, true⟩,
   ⟨"ResponseTypesSupported", "response_types_supported", .strs, false⟩,
   ⟨"ResponseModesSupported", "response_modes_supported", .strs, true⟩,
   ⟨"GrantTypesSupported", "grant_types_supported", .strs, true⟩,
   ⟨"ACRValuesSupported", "acr_values_supported", .strs, true⟩,
   ⟨"SubjectTypesSupported", "subject_types_supported", .strs, false⟩,
   ⟨"IDTokenSignedResponseAlgValuesSupported", "id_token_signed_response_alg_values_supported", .strs, true⟩,
   ⟨"IDTokenEncryptedResponseAlgValuesSupported", "id_token_encrypted_response_alg_values_supported", .strs, true⟩,
   ⟨"IDTokenEncryptedResponseEncValuesSupported", "id_token_encrypted_response_enc_values_supported", .strs, true⟩,
   ⟨"UserinfoSignedResponseAlgValuesSupported", "userinfo_signed_response_alg_values_supported", .strs, true⟩,
   ⟨"UserinfoEncryptedResponseAlgValuesSupported", "userinfo_encrypted_response_alg_values_supported", .strs, true⟩,
   ⟨"UserinfoEncryptedResponseEncValuesSupported", "userinfo_encrypted_response_enc_values_supported", .strs, true⟩,
   ⟨"RequestSignedResponseAlgValuesSupported", "request_signed_response_alg_values_supported", .strs, true⟩,
   ⟨"RequestEncryptedResponseAlgValuesSupported", "request_encrypted_response_alg_values_supported", .strs, true⟩,
   ⟨"RequestEncryptedResponseEncValuesSupported", "request_encrypted_response_enc_values_supported", .strs, true⟩,
   ⟨"TokenEndpointAuthMethodsSupported", "token_endpoint_auth_methods_supported", .strs, true⟩,
   ⟨"TokenEndpointAuthSigningAlgValuesSupported", "token_endpoint_auth_signing_alg_values_supported", .strs, true⟩,
   ⟨"DisplayValuesSupported", "display_values_supported", .strs, true⟩,
   ⟨"ClaimsSupported", "claims_supported", .strs, true⟩,
   ⟨"ServiceDocumentation", "service_documentation", .str, true⟩,
   ⟨"ClaimsLocalesSupported", "claims_locales_supported", .strs, true⟩,
   ⟨"UILocalesSupported", "ui_locales_supported", .strs, true⟩,
   ⟨"ClaimsParameterSupported", "claims_parameter_supported", .bool, true⟩,
   ⟨"RequestParameterSupported", "request_parameter_supported", .bool, true⟩,
   ⟨"RequestURIParameterSupported", "request_uri_parameter_supported", .bool, true⟩,
   ⟨"RequireRequestURIRegistration", "require_request_uri_registration", .bool, true⟩,
   ⟨"OPPolicyURI", "op_policy_uri", .str, true⟩,
   ⟨"OPTOSURI", "op_tos_uri", .str, true⟩,
   ⟨"RevocationEndpoint", "revocation_endpoint", .str, true⟩,
   ⟨"RevocationEndpointAuthMethodsSupported", "revocation_endpoint_auth_methods_supported", .strs, true⟩,
   ⟨"RevocationEndpointAuthSigningAlgValuesSupported", "revocation_endpoint_auth_signing_alg_values_supported", .strs, true⟩,
   ⟨"IntrospectionEndpoint", "introspection_endpoint", .str, true⟩,
   ⟨"IntrospectionEndpointAuthMethodsSupported", "introspection_endpoint_auth_methods_supported", .strs, true⟩,
   ⟨"IntrospectionEndpointAuthSigningAlgValuesSupported", "introspection_endpoint_auth_signing_alg_values_supported", .strs, true⟩,
   ⟨"IntrospectionSigningAlgValuesSupported", "introspection_signing_alg_values_supported", .strs, true⟩,
   ⟨"IntrospectionEncryptionAlgValuesSupported", "introspection_encryption_alg_values_supported", .strs, true⟩,
   ⟨"IntrospectionEncryptionEncValuesSupported", "introspection_encryption_enc_values_supported", .strs, true⟩,
   ⟨"CodeChallengeMethodsSupported", "code_challenge_methods_supported", .strs, true⟩,
   ⟨"SignedMetadata", "signed_metadata", .str, true⟩,
   ⟨"DeviceAuthorizationEndpoint", "device_authorization_endpoint", .str, true⟩,
   ⟨"TLSClientCertificateBoundAccessTokens", "tls_client_certificate_bound_access_tokens", .bool, true⟩,
   ⟨"MTLSEndpointAliases", "mtls_endpoint_aliases", .map, true⟩,
   ⟨"NFVTokenSigningAlgValuesSupported", "nfv_token_signing_alg_values_supported", .strs, true⟩,
   ⟨"NFVTokenEncryptionAlgValuesSupported", "nfv_token_encryption_alg_values_supported", .strs, true⟩,
   ⟨"NFVTokenEncryptionEncValuesSupported", "nfv_token_encryption_enc_values_supported", .strs, true⟩,
   ⟨"RequireSignedRequestObject", "require_signed_request_object", .bool, true⟩,
   ⟨"PushedAuthorizationRequestEndpoint", "pushed_authorization_request_endpoint", .str, true⟩,
   ⟨"RequirePushedAuthorizationRequests", "require_pushed_authorization_requests", .bool, true⟩,
   ⟨"AuthorizationResponseIssParameterSupported", "authorization_response_iss_parameter_supported", .bool, true⟩,
   ⟨"CheckSessionIFrame", "check_session_iframe", .str, true⟩,
   ⟨"FrontchannelLogoutSupported", "frontchannel_logout_supported", .bool, true⟩,
   ⟨"BackchannelLogoutSupported", "backchannel_logout_supported", .bool, true⟩,
   ⟨"BackchannelLogoutSessionSupported", "backchannel_logout_session_supported", .bool, true⟩,
   ⟨"EndSessionEndpoint", "end_session_endpoint", .str, true⟩,
   ⟨"BackchannelTokenDeliveryModesSupported", "backchannel_token_delivery_modes_supported", .strs, true⟩,
   ⟨"BackchannelAuthenticationEndpoint", "backchannel_authentication_endpoint", .str, true⟩,
   ⟨"BackchannelAuthenticationRequestSigningAlgValuesSupported", "backchannel_authentication_request_signing_alg_values_supported", .strs, true⟩,
   ⟨"BackchannelUserCodeParameterSupported", "backchannel_user_code_parameter_supported", .bool, true⟩,
   ⟨"AuthorizationDetailsTypesSupported", "authorization_details_types_supported", .strs, true⟩,
   ⟨"ClientRegistrationTypesSupported", "client_registration_types_supported", .strs, false⟩,
   ⟨"FederationRegistrationEndpoint", "federation_registration_endpoint", .str, true⟩,
   ⟨"RequestAuthenticationMethodsSupported", "request_authentication_methods_supported", .map, true⟩,
   ⟨"RequestAuthenticationSigningAlgValuesSupported", "request_authentication_signing_alg_values_supported", .strs, true⟩,
   ⟨"SignedJWKSURI", "signed_jwks_uri", .str, true⟩,
   ⟨"JWKSURI", "jwks_uri", .str, true⟩,
   ⟨"JWKS", "jwks", .ptr, true⟩,
   ⟨"DisplayName", "display_name", .str, true⟩,
   ⟨"Description", "description", .str, true⟩,
   ⟨"Keywords", "keywords", .strs, true⟩,
   ⟨"Contacts", "contacts", .strs, true⟩,
   ⟨"LogoURI", "logo_uri", .str, true⟩,
   ⟨"PolicyURI", "policy_uri", .str, true⟩,
   ⟨"InformationURI", "information_uri", .str, true⟩,
   ⟨"OrganizationName", "organization_name", .str, true⟩,
   ⟨"OrganizationURI", "organization_uri", .str, true⟩]

/-- The fields of `OAuthProtectedResourceMetadata` (metadata_generated.go:681-707), without `wasSet` and `Extra`. -/
def resourceFields : List MField :=
  [⟨"Resource", "resource", .str, true⟩,
   ⟨"AuthorizationServers", "authorization_servers", .strs, true⟩,
   ⟨"ScopesSupported", "scopes_supported", .strs, true⟩,
   ⟨"BearerMethodsSupported", "bearer_methods_supported", .strs, true⟩,
   ⟨"ResourceSigningAlgValuesSupported", "resource_signing_alg_values_supported", .strs, true⟩,
   ⟨"ResourceEncryptionAlgValuesSupported", "resource_encryption_alg_values_supported", .strs, false⟩,
   ⟨"ResourceEncryptionEncValuesSupported", "resource_encryption_enc_values_supported", .strs, false⟩,
   ⟨"ResourceName", "resource_name", .str, true⟩,
   ⟨"ResourceDocumentation", "resource_documentation", .str, true⟩,
   ⟨"ResourcePolicyURI", "resource_policy_uri", .str, true⟩,
   ⟨"ResourceTOSURI", "resource_tos_uri", .str, true⟩,
   ⟨"SignedJWKSURI", "signed_jwks_uri", .str, true⟩,
   ⟨"JWKSURI", "jwks_uri", .str, true⟩,
   ⟨"JWKS", "jwks", .ptr, true⟩,
   ⟨"DisplayName", "display_name", .str, true⟩,
   ⟨"Description", "description", .str, true⟩,
   ⟨"Keywords", "keywords", .strs, true⟩,
   ⟨"Contacts", "contacts", .strs, true⟩,
   ⟨"LogoURI", "logo_uri", .str, true⟩,
   ⟨"PolicyURI", "policy_uri", .str, true⟩,
   ⟨"InformationURI", "information_uri", .str, true⟩,
   ⟨"OrganizationName", "organization_name", .str, true⟩,
   ⟨"OrganizationURI", "organization_uri", .str, true⟩]

/-- The fields of `oAuthProtectedResourceMetadataWithPtrs` (metadata_generated.go:709-734), without `wasSet` and `Extra`. -/
def resourcePtrFields : List MField :=
  [⟨"Resource", "resource", .str, true⟩,
   ⟨"AuthorizationServers", "authorization_servers", .strs, true⟩,
   ⟨"ScopesSupported", "scopes_supported", .strs, true⟩,
   ⟨"BearerMethodsSupported", "bearer_methods_supported", .strs, true⟩,
   ⟨"ResourceSigningAlgValuesSupported", "resource_signing_alg_values_supported", .strs, true⟩,
   ⟨"ResourceEncryptionAlgValuesSupported", "resource_encryption_alg_values_supported", .strs, false⟩,
   ⟨"ResourceEncryptionEncValuesSupported", "resource_encryption_enc_values_supported", .strs, false⟩,
   ⟨"ResourceName", "resource_name", .str, true⟩,
   ⟨"ResourceDocumentation", "resource_documentation", .str, true⟩,
   ⟨"ResourcePolicyURI", "resource_policy_uri", .str, true⟩,
   ⟨"ResourceTOSURI", "resource_tos_uri", .str, true⟩,
   ⟨"SignedJWKSURI", "signed_jwks_uri", .str, true⟩,
   ⟨"JWKSURI", "jwks_uri", .str, true⟩,
   ⟨"JWKS", "jwks", .ptr, true⟩,
   ⟨"DisplayName", "display_name", .str, true⟩,
   ⟨"Description", "description", .str, true⟩,
   ⟨"Keywords", "keywords", .strs, true⟩,
   ⟨"Contacts", "contacts", .strs, true⟩,
   ⟨"LogoURI", "logo_uri", .str, true⟩,
   ⟨"PolicyURI", "policy_uri", .str, true⟩,
   ⟨"InformationURI", "information_uri", .str, true⟩,
   ⟨"OrganizationName", "organization_name", .str, true⟩,
   ⟨"OrganizationURI", "organization_uri", .str, true⟩]

/-- The struct type of each member of `Metadata` (metadata.go:15-20). `OAuthAuthorizationServerMetadata` and `OAuthClientMetadata` are defined as the
OP and RP struct and convert to them for JSON (metadata.go:358-439). -/
def metaFields : EType → List MField
  | .op | .as => opFields
  | .rp | .client => rpFields
  | .resource => resourceFields
  | .fed => fedFields

/-- The pointer struct each type is decoded through. -/
def metaPtrFields : EType → List MField
  | .op | .as => opPtrFields
  | .rp | .client => rpPtrFields
  | .resource => resourcePtrFields
  | .fed => fedPtrFields

/-- Decoding of maps and key sets; `none` is an error. Arbitrary in all theorems. A key set without keys is decoded to a nil set inside a non-nil
pointer (jwks/jwks.go:30-46), which is written as null: the result `.null`. -/
abbrev Opaque := MKind → JV → Option JV

/-- `encoding/json` decoding a value into a field of a pointer struct: outer `none` is an error, inner `none` the nil pointer, slice or
map. -/
def decMeta (opq : Opaque) (k : MKind) (v : JV) : Option (Option JV) :=
  match k, v with
  | _, .null => some none
  | .str, .str s => some (some (.str s))
  | .bool, .bool b => some (some (.bool b))
  | .int, .num q => if q.den = 1 ∧ minDuration ≤ q.num ∧ q.num ≤ maxDuration then some (some (.num q)) else none
  | .strs, .arr l => (decStrings l).map (fun ss => some (.arr (ss.map .str)))
  | .map, v => (opq .map v).map some
  | .ptr, v => (opq .ptr v).map some
  | _, _ => none

/-- A member that is decoded into a map which an earlier member has filled adds to it. -/
def intoMap (cur : Option JV) (v : JV) : JV :=
  match cur, v with
  | some (.obj l), .obj l' => .obj (l ++ l')
  | _, v => v

/-- The decoder of a pointer struct, by tag. Strings, numbers, slices and key sets are replaced by a later member for the same field. -/
def ptrDec (opq : Opaque) (P : List MField) : FieldDec := fun t cur v =>
  match P.find? (fun f => f.tag == t) with
  | none => none
  | some f => decMeta opq f.kind (if f.kind = .map then intoMap cur v else v)

/-- The zero value of a field: `none` for a nil slice, map or pointer. -/
def MKind.zero : MKind → Option JV
  | .str => some (.str "")
  | .bool => some (.bool false)
  | .int => some (.num 0)
  | _ => none

/-- A metadata struct at the JSON level: the value of each field by Go name, the names in `wasSet`, `Extra`. -/
structure MStruct where
  val : String → Option JV
  wasSet : List String
  extra : AMap JV

/-- `fromPointers` into a zero struct (metadata_generated.go:75-106, 324-355, 597-628, 756-787). The fields of the pointer struct are matched by Go
name; a field that is not nil is marked as set. `Extra` is one of the fields, and afterwards each key of `Extra` is marked as well. -/
def fromPtrs (S P : List MField) (o : JStruct) : MStruct where
  val := fun n =>
    match S.find? (fun f => f.name == n) with
    | none => none
    | some f =>
      match P.find? (fun p => p.name == n) with
      | none => f.kind.zero
      | some p => (o.known p.tag).or f.kind.zero
  wasSet := (P.filter (fun p => S.any (fun f => f.name == p.name) && (o.known p.tag).isSome)).map MField.name ++
    (if o.extra.isEmpty then [] else ["Extra"]) ++ o.extra.keys
  extra := o.extra

/-- Whether a field is a pointer in the pointer struct only: if the pointer is nil, `fromPointers` leaves the field alone (metadata_generated.go:94-101). -/
def MKind.scalar : MKind → Bool
  | .str | .bool | .int => true
  | _ => false

/-- `fromPointers` into a struct that has values already (metadata_generated.go:75-106, 324-355, 597-628, 756-787): strings, bools and numbers which are not stated
keep their value, everything else is replaced, and only what is stated now is marked as set. -/
def fromPtrsInto (S P : List MField) (old : MStruct) (o : JStruct) : MStruct where
  val := fun n =>
    match S.find? (fun f => f.name == n) with
    | none => none
    | some _ =>
      match P.find? (fun p => p.name == n) with
      | none => old.val n
      | some p => if p.kind.scalar then (o.known p.tag).or (old.val n) else o.known p.tag
  wasSet := (fromPtrs S P o).wasSet
  extra := o.extra

/-- `UnmarshalJSON` of a metadata struct that has values already (metadata_generated.go:109-131, 358-380, 631-653, 790-812). -/
def readMetaInto (opq : Opaque) (S P : List MField) (old : MStruct) (l : JObj) : Option MStruct :=
  (unmarshalObj (P.map MField.tag) (ptrDec opq P) l).map (fromPtrsInto S P old)

/-- `UnmarshalJSON` of a metadata struct into a zero struct (metadata_generated.go:109-131, 358-380, 631-653, 790-812). -/
def readMeta (opq : Opaque) (S P : List MField) (l : JObj) : Option MStruct :=
  (unmarshalObj (P.map MField.tag) (ptrDec opq P) l).map (fromPtrs S P)

/-- The values `omitempty` leaves out; a non-nil pointer is never left out. -/
def emptyJV : JV → Bool
  | .str s => s == ""
  | .bool b => !b
  | .num q => q == 0
  | .arr l => l.isEmpty
  | .obj l => l.isEmpty
  | .null => false

/-- What `encoding/json` writes for a field. -/
def writeField (f : MField) (v : Option JV) : Option JV :=
  match v with
  | none => if f.omits then none else some .null
  | some v => if f.omits && (f.kind != .ptr && emptyJV v) then none else some v

/-- `MarshalJSON` of a metadata struct (metadata_generated.go:56-63, 305-312, 578-585, 737-744). -/
def writeMeta (S : List MField) (m : MStruct) : JObj :=
  marshalObj (S.map MField.tag) ⟨fun t =>
    match S.find? (fun f => f.tag == t) with
    | none => none
    | some f => writeField f (m.val f.name), m.extra⟩

/-! ## As seen by the policies -/

/-- The static type of a field. Maps with other than interface values (`map[string]string`, `map[string][]string`; metadata_generated.go:456, 476) are, like pointers, of a type no value decoded from
JSON into `any` has. -/
def MKind.ty : MKind → Ty
  | .str => .str
  | .bool => .bool
  | .int => .int
  | .strs => .slice .str
  | .map => .ptr
  | .ptr => .ptr

/-- A field's value as a Go value; maps and key sets are numbered. -/
def MKind.goVal (num : JV → Nat) (k : MKind) (v : Option JV) : Val :=
  match k, v with
  | .str, some (.str s) => .str s
  | .bool, some (.bool b) => .bool b
  | .int, some (.num q) => .int q.num
  | .strs, some (.arr l) => .slice .str false (l.map (fun j => match j with | .str s => .str s | _ => .nil))
  | .strs, _ => .slice .str true []
  | .map, v => .ptr (v.map num)
  | .ptr, v => .ptr (v.map num)
  | k, _ => Val.zeroOf k.ty

/-- The field `Extra` (metadata_generated.go:23, 220, 478, 694), which has the tag `-`; the map is numbered, and nil if there are no additional claims
(entitystatement.go:148-150). -/
def extraField (num : JV → Nat) (m : MStruct) : Field := ⟨"Extra", "-", .obj, .obj (if m.extra.isEmpty then none else some (num (.obj m.extra)))⟩

/-! ## Metadata -/

/-- `Metadata` read from JSON (metadata.go:14-23): a struct for each known entity type that was present and not null, the rest in `Extra`. -/
structure JMetadata where
  known : EType → Option MStruct
  extra : AMap JV

/-- Decoding a member of `Metadata` into the pointer for an entity type, which an earlier member may have set; `none` is an error. Null sets the pointer to nil,
an object is decoded into the struct that is there or else into a new one. -/
def readType (opq : Opaque) (t : EType) (cur : Option MStruct) : JV → Option (Option MStruct)
  | .null => some none
  | .obj l =>
    match cur with
    | none => (readMeta opq (metaFields t) (metaPtrFields t) l).map some
    | some old => (readMetaInto opq (metaFields t) (metaPtrFields t) old l).map some
  | _ => none

/-- The field of `Metadata` a member named `k` is decoded into (see `fieldFor`). -/
def typeFor (k : String) : Option EType :=
  match EType.all.find? (fun t => t.tag == k) with
  | some t => some t
  | none => EType.all.find? (fun t => foldName t.tag == foldName k)

/-- Decoding the fields of `Metadata` one member after the other (see `decodeKnown`). -/
def decodeTypes (opq : Opaque) : JObj → (EType → Option MStruct) → Option (EType → Option MStruct)
  | [], f => some f
  | (k, v) :: l, f =>
    match typeFor k with
    | none => decodeTypes opq l f
    | some t =>
      match readType opq t (f t) v with
      | none => none
      | some x => decodeTypes opq l (fun u => if u = t then x else f u)

/-- `Metadata.UnmarshalJSON` into a zero struct (metadata.go:198-208). -/
def readMetadata (opq : Opaque) (l : JObj) : Option JMetadata :=
  (decodeTypes opq l (fun _ => none)).map (fun f => ⟨f, (objMap l).filter (fun kv => !((EType.all.map EType.tag).contains kv.1))⟩)

/-- What a call of `FindEntityMetadata` leaves behind: whether it returned an error, and the caller's object. -/
structure Found (α : Type) where
  failed : Bool
  target : α

/-- `Metadata.FindEntityMetadata` (metadata.go:318-356) with a caller's object `target` whose type decodes JSON with `dec` (given the current
contents; a failed decoding leaves contents `dec` does not determine, here the old ones). For a known entity type the assignment at
line 341 changes the parameter, not the object; the same happens for `-`, the tag of the field `Extra` itself. The values of `Extra` came from JSON and can be written again. -/
def findEntityMetadata {α : Type} (m : JMetadata) (type : String) (dec : α → JV → Option α) (target : α) : Found α :=
  if EType.all.any (fun t => t.tag == type && (m.known t).isSome) || (type == "-" && !m.extra.isEmpty) then ⟨false, target⟩
  else
    match AMap.get m.extra type with
    | none => ⟨true, target⟩
    | some v =>
      match dec target v with
      | none => ⟨true, target⟩
      | some r => ⟨false, r⟩

end Oidfed
