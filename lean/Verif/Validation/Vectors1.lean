import Verif.Validation.Vectors
/-!
# Metadata policy test vectors 1 to 700

Generated by `validation/gen_vectors.py`.
-/

namespace Oidfed.Validation
open Oidfed

/-- The vectors. -/
def vectors1 : List TestVector := [
  ⟨1, .obj [("id_token_signed_response_alg", .obj [("value", .str "RS256"), ("essential", .bool true)])], .obj [("id_token_signed_response_alg", .obj [("value", .str "RS256"), ("essential", .bool true)])], some (.obj [("id_token_signed_response_alg", .obj [("value", .str "RS256"), ("essential", .bool true)])]), .obj [("id_token_signed_response_alg", .str "RS256")], .obj [("id_token_signed_response_alg", .str "RS256")], false⟩,
  ⟨2, .obj [("id_token_signed_response_alg", .obj [("value", .str "RS256"), ("essential", .bool true)])], .obj [("id_token_signed_response_alg", .obj [("value", .str "RS256")])], some (.obj [("id_token_signed_response_alg", .obj [("value", .str "RS256"), ("essential", .bool true)])]), .obj [("id_token_signed_response_alg", .str "RS256")], .obj [("id_token_signed_response_alg", .str "RS256")], false⟩,
  ⟨3, .obj [("id_token_signed_response_alg", .obj [("value", .str "RS256")])], .obj [("id_token_signed_response_alg", .obj [("value", .str "RS256"), ("essential", .bool true)])], some (.obj [("id_token_signed_response_alg", .obj [("value", .str "RS256"), ("essential", .bool true)])]), .obj [("id_token_signed_response_alg", .str "RS256")], .obj [("id_token_signed_response_alg", .str "RS256")], false⟩,
  ⟨4, .obj [("id_token_signed_response_alg", .obj [("value", .str "RS256")])], .obj [("id_token_signed_response_alg", .obj [("value", .str "RS256")])], some (.obj [("id_token_signed_response_alg", .obj [("value", .str "RS256")])]), .obj [("id_token_signed_response_alg", .str "RS256")], .obj [("id_token_signed_response_alg", .str "RS256")], false⟩,
  ⟨5, .obj [("id_token_signed_response_alg", .obj [("value", .str "RS256"), ("essential", .bool true)])], .obj [("id_token_signed_response_alg", .obj [("value", .str "RS256"), ("essential", .bool true)])], some (.obj [("id_token_signed_response_alg", .obj [("value", .str "RS256"), ("essential", .bool true)])]), .obj [("id_token_signed_response_alg", .str "EdDSA")], .obj [("id_token_signed_response_alg", .str "RS256")], false⟩,
  ⟨6, .obj [("id_token_signed_response_alg", .obj [("value", .str "RS256"), ("essential", .bool true)])], .obj [("id_token_signed_response_alg", .obj [("value", .str "RS256")])], some (.obj [("id_token_signed_response_alg", .obj [("value", .str "RS256"), ("essential", .bool true)])]), .obj [("id_token_signed_response_alg", .str "EdDSA")], .obj [("id_token_signed_response_alg", .str "RS256")], false⟩,
  ⟨7, .obj [("id_token_signed_response_alg", .obj [("value", .str "RS256")])], .obj [("id_token_signed_response_alg", .obj [("value", .str "RS256"), ("essential", .bool true)])], some (.obj [("id_token_signed_response_alg", .obj [("value", .str "RS256"), ("essential", .bool true)])]), .obj [("id_token_signed_response_alg", .str "EdDSA")], .obj [("id_token_signed_response_alg", .str "RS256")], false⟩,
  ⟨8, .obj [("id_token_signed_response_alg", .obj [("value", .str "RS256")])], .obj [("id_token_signed_response_alg", .obj [("value", .str "RS256")])], some (.obj [("id_token_signed_response_alg", .obj [("value", .str "RS256")])]), .obj [("id_token_signed_response_alg", .str "EdDSA")], .obj [("id_token_signed_response_alg", .str "RS256")], false⟩,
  ⟨9, .obj [("id_token_signed_response_alg", .obj [("value", .str "RS256"), ("essential", .bool true)])], .obj [("id_token_signed_response_alg", .obj [("value", .str "RS256"), ("essential", .bool true)])], some (.obj [("id_token_signed_response_alg", .obj [("value", .str "RS256"), ("essential", .bool true)])]), .obj [], .obj [("id_token_signed_response_alg", .str "RS256")], false⟩,
  ⟨10, .obj [("id_token_signed_response_alg", .obj [("value", .str "RS256"), ("essential", .bool true)])], .obj [("id_token_signed_response_alg", .obj [("value", .str "RS256")])], some (.obj [("id_token_signed_response_alg", .obj [("value", .str "RS256"), ("essential", .bool true)])]), .obj [], .obj [("id_token_signed_response_alg", .str "RS256")], false⟩,
  ⟨11, .obj [("id_token_signed_response_alg", .obj [("value", .str "RS256")])], .obj [("id_token_signed_response_alg", .obj [("value", .str "RS256"), ("essential", .bool true)])], some (.obj [("id_token_signed_response_alg", .obj [("value", .str "RS256"), ("essential", .bool true)])]), .obj [], .obj [("id_token_signed_response_alg", .str "RS256")], false⟩,
  ⟨12, .obj [("id_token_signed_response_alg", .obj [("value", .str "RS256")])], .obj [("id_token_signed_response_alg", .obj [("value", .str "RS256")])], some (.obj [("id_token_signed_response_alg", .obj [("value", .str "RS256")])]), .obj [], .obj [("id_token_signed_response_alg", .str "RS256")], false⟩,
  ⟨13, .obj [("logo_uri", .obj [("value", .null)])], .obj [("logo_uri", .obj [("value", .str "https://example.com/logo.png")])], none, .obj [("logo_uri", .str "https://example.com/logo.png")], .obj [], true⟩,
  ⟨14, .obj [("logo_uri", .obj [("value", .null)])], .obj [("logo_uri", .obj [("value", .str "https://example.com/logo.png")])], none, .obj [("logo_uri", .str "https://images.example.com/logo.jpg")], .obj [], true⟩,
  ⟨15, .obj [("logo_uri", .obj [("value", .null)])], .obj [("logo_uri", .obj [("value", .str "https://example.com/logo.png")])], none, .obj [], .obj [], true⟩,
  ⟨16, .obj [("grant_types", .obj [("value", .arr []), ("essential", .bool true)])], .obj [("grant_types", .obj [("value", .arr [.str "authorization_code"]), ("essential", .bool true)])], none, .obj [("grant_types", .arr [.str "authorization_code"])], .obj [], true⟩,
  ⟨17, .obj [("grant_types", .obj [("value", .arr []), ("essential", .bool true)])], .obj [("grant_types", .obj [("value", .arr [.str "authorization_code"])])], none, .obj [("grant_types", .arr [.str "authorization_code"])], .obj [], true⟩,
  ⟨18, .obj [("grant_types", .obj [("value", .arr [])])], .obj [("grant_types", .obj [("value", .arr [.str "authorization_code"]), ("essential", .bool true)])], none, .obj [("grant_types", .arr [.str "authorization_code"])], .obj [], true⟩,
  ⟨19, .obj [("grant_types", .obj [("value", .arr [])])], .obj [("grant_types", .obj [("value", .arr [.str "authorization_code"])])], none, .obj [("grant_types", .arr [.str "authorization_code"])], .obj [], true⟩,
  ⟨20, .obj [("grant_types", .obj [("value", .arr []), ("essential", .bool true)])], .obj [("grant_types", .obj [("value", .arr [.str "authorization_code"]), ("essential", .bool true)])], none, .obj [("grant_types", .arr [.str "password"])], .obj [], true⟩,
  ⟨21, .obj [("grant_types", .obj [("value", .arr []), ("essential", .bool true)])], .obj [("grant_types", .obj [("value", .arr [.str "authorization_code"])])], none, .obj [("grant_types", .arr [.str "password"])], .obj [], true⟩,
  ⟨22, .obj [("grant_types", .obj [("value", .arr [])])], .obj [("grant_types", .obj [("value", .arr [.str "authorization_code"]), ("essential", .bool true)])], none, .obj [("grant_types", .arr [.str "password"])], .obj [], true⟩,
  ⟨23, .obj [("grant_types", .obj [("value", .arr [])])], .obj [("grant_types", .obj [("value", .arr [.str "authorization_code"])])], none, .obj [("grant_types", .arr [.str "password"])], .obj [], true⟩,
  ⟨24, .obj [("grant_types", .obj [("value", .arr []), ("essential", .bool true)])], .obj [("grant_types", .obj [("value", .arr [.str "authorization_code"]), ("essential", .bool true)])], none, .obj [("grant_types", .arr [.str "authorization_code", .str "refresh_token"])], .obj [], true⟩,
  ⟨25, .obj [("grant_types", .obj [("value", .arr []), ("essential", .bool true)])], .obj [("grant_types", .obj [("value", .arr [.str "authorization_code"])])], none, .obj [("grant_types", .arr [.str "authorization_code", .str "refresh_token"])], .obj [], true⟩,
  ⟨26, .obj [("grant_types", .obj [("value", .arr [])])], .obj [("grant_types", .obj [("value", .arr [.str "authorization_code"]), ("essential", .bool true)])], none, .obj [("grant_types", .arr [.str "authorization_code", .str "refresh_token"])], .obj [], true⟩,
  ⟨27, .obj [("grant_types", .obj [("value", .arr [])])], .obj [("grant_types", .obj [("value", .arr [.str "authorization_code"])])], none, .obj [("grant_types", .arr [.str "authorization_code", .str "refresh_token"])], .obj [], true⟩,
  ⟨28, .obj [("grant_types", .obj [("value", .arr []), ("essential", .bool true)])], .obj [("grant_types", .obj [("value", .arr [.str "authorization_code"]), ("essential", .bool true)])], none, .obj [("grant_types", .arr [.str "authorization_code", .str "password"])], .obj [], true⟩,
  ⟨29, .obj [("grant_types", .obj [("value", .arr []), ("essential", .bool true)])], .obj [("grant_types", .obj [("value", .arr [.str "authorization_code"])])], none, .obj [("grant_types", .arr [.str "authorization_code", .str "password"])], .obj [], true⟩,
  ⟨30, .obj [("grant_types", .obj [("value", .arr [])])], .obj [("grant_types", .obj [("value", .arr [.str "authorization_code"]), ("essential", .bool true)])], none, .obj [("grant_types", .arr [.str "authorization_code", .str "password"])], .obj [], true⟩,
  ⟨31, .obj [("grant_types", .obj [("value", .arr [])])], .obj [("grant_types", .obj [("value", .arr [.str "authorization_code"])])], none, .obj [("grant_types", .arr [.str "authorization_code", .str "password"])], .obj [], true⟩,
  ⟨32, .obj [("grant_types", .obj [("value", .arr []), ("essential", .bool true)])], .obj [("grant_types", .obj [("value", .arr [.str "authorization_code"]), ("essential", .bool true)])], none, .obj [("grant_types", .arr [])], .obj [], true⟩,
  ⟨33, .obj [("grant_types", .obj [("value", .arr []), ("essential", .bool true)])], .obj [("grant_types", .obj [("value", .arr [.str "authorization_code"])])], none, .obj [("grant_types", .arr [])], .obj [], true⟩,
  ⟨34, .obj [("grant_types", .obj [("value", .arr [])])], .obj [("grant_types", .obj [("value", .arr [.str "authorization_code"]), ("essential", .bool true)])], none, .obj [("grant_types", .arr [])], .obj [], true⟩,
  ⟨35, .obj [("grant_types", .obj [("value", .arr [])])], .obj [("grant_types", .obj [("value", .arr [.str "authorization_code"])])], none, .obj [("grant_types", .arr [])], .obj [], true⟩,
  ⟨36, .obj [("grant_types", .obj [("value", .arr []), ("essential", .bool true)])], .obj [("grant_types", .obj [("value", .arr [.str "authorization_code"]), ("essential", .bool true)])], none, .obj [], .obj [], true⟩,
  ⟨37, .obj [("grant_types", .obj [("value", .arr []), ("essential", .bool true)])], .obj [("grant_types", .obj [("value", .arr [.str "authorization_code"])])], none, .obj [], .obj [], true⟩,
  ⟨38, .obj [("grant_types", .obj [("value", .arr [])])], .obj [("grant_types", .obj [("value", .arr [.str "authorization_code"]), ("essential", .bool true)])], none, .obj [], .obj [], true⟩,
  ⟨39, .obj [("grant_types", .obj [("value", .arr [])])], .obj [("grant_types", .obj [("value", .arr [.str "authorization_code"])])], none, .obj [], .obj [], true⟩,
  ⟨40, .obj [("grant_types", .obj [("value", .arr []), ("essential", .bool true)])], .obj [("grant_types", .obj [("value", .arr [.str "authorization_code", .str "refresh_token"]), ("essential", .bool true)])], none, .obj [("grant_types", .arr [.str "authorization_code"])], .obj [], true⟩,
  ⟨41, .obj [("grant_types", .obj [("value", .arr []), ("essential", .bool true)])], .obj [("grant_types", .obj [("value", .arr [.str "authorization_code", .str "refresh_token"])])], none, .obj [("grant_types", .arr [.str "authorization_code"])], .obj [], true⟩,
  ⟨42, .obj [("grant_types", .obj [("value", .arr [])])], .obj [("grant_types", .obj [("value", .arr [.str "authorization_code", .str "refresh_token"]), ("essential", .bool true)])], none, .obj [("grant_types", .arr [.str "authorization_code"])], .obj [], true⟩,
  ⟨43, .obj [("grant_types", .obj [("value", .arr [])])], .obj [("grant_types", .obj [("value", .arr [.str "authorization_code", .str "refresh_token"])])], none, .obj [("grant_types", .arr [.str "authorization_code"])], .obj [], true⟩,
  ⟨44, .obj [("grant_types", .obj [("value", .arr []), ("essential", .bool true)])], .obj [("grant_types", .obj [("value", .arr [.str "authorization_code", .str "refresh_token"]), ("essential", .bool true)])], none, .obj [("grant_types", .arr [.str "password"])], .obj [], true⟩,
  ⟨45, .obj [("grant_types", .obj [("value", .arr []), ("essential", .bool true)])], .obj [("grant_types", .obj [("value", .arr [.str "authorization_code", .str "refresh_token"])])], none, .obj [("grant_types", .arr [.str "password"])], .obj [], true⟩,
  ⟨46, .obj [("grant_types", .obj [("value", .arr [])])], .obj [("grant_types", .obj [("value", .arr [.str "authorization_code", .str "refresh_token"]), ("essential", .bool true)])], none, .obj [("grant_types", .arr [.str "password"])], .obj [], true⟩,
  ⟨47, .obj [("grant_types", .obj [("value", .arr [])])], .obj [("grant_types", .obj [("value", .arr [.str "authorization_code", .str "refresh_token"])])], none, .obj [("grant_types", .arr [.str "password"])], .obj [], true⟩,
  ⟨48, .obj [("grant_types", .obj [("value", .arr []), ("essential", .bool true)])], .obj [("grant_types", .obj [("value", .arr [.str "authorization_code", .str "refresh_token"]), ("essential", .bool true)])], none, .obj [("grant_types", .arr [.str "authorization_code", .str "refresh_token"])], .obj [], true⟩,
  ⟨49, .obj [("grant_types", .obj [("value", .arr []), ("essential", .bool true)])], .obj [("grant_types", .obj [("value", .arr [.str "authorization_code", .str "refresh_token"])])], none, .obj [("grant_types", .arr [.str "authorization_code", .str "refresh_token"])], .obj [], true⟩,
  ⟨50, .obj [("grant_types", .obj [("value", .arr [])])], .obj [("grant_types", .obj [("value", .arr [.str "authorization_code", .str "refresh_token"]), ("essential", .bool true)])], none, .obj [("grant_types", .arr [.str "authorization_code", .str "refresh_token"])], .obj [], true⟩,
  ⟨51, .obj [("grant_types", .obj [("value", .arr [])])], .obj [("grant_types", .obj [("value", .arr [.str "authorization_code", .str "refresh_token"])])], none, .obj [("grant_types", .arr [.str "authorization_code", .str "refresh_token"])], .obj [], true⟩,
  ⟨52, .obj [("grant_types", .obj [("value", .arr []), ("essential", .bool true)])], .obj [("grant_types", .obj [("value", .arr [.str "authorization_code", .str "refresh_token"]), ("essential", .bool true)])], none, .obj [("grant_types", .arr [.str "authorization_code", .str "password"])], .obj [], true⟩,
  ⟨53, .obj [("grant_types", .obj [("value", .arr []), ("essential", .bool true)])], .obj [("grant_types", .obj [("value", .arr [.str "authorization_code", .str "refresh_token"])])], none, .obj [("grant_types", .arr [.str "authorization_code", .str "password"])], .obj [], true⟩,
  ⟨54, .obj [("grant_types", .obj [("value", .arr [])])], .obj [("grant_types", .obj [("value", .arr [.str "authorization_code", .str "refresh_token"]), ("essential", .bool true)])], none, .obj [("grant_types", .arr [.str "authorization_code", .str "password"])], .obj [], true⟩,
  ⟨55, .obj [("grant_types", .obj [("value", .arr [])])], .obj [("grant_types", .obj [("value", .arr [.str "authorization_code", .str "refresh_token"])])], none, .obj [("grant_types", .arr [.str "authorization_code", .str "password"])], .obj [], true⟩,
  ⟨56, .obj [("grant_types", .obj [("value", .arr []), ("essential", .bool true)])], .obj [("grant_types", .obj [("value", .arr [.str "authorization_code", .str "refresh_token"]), ("essential", .bool true)])], none, .obj [("grant_types", .arr [])], .obj [], true⟩,
  ⟨57, .obj [("grant_types", .obj [("value", .arr []), ("essential", .bool true)])], .obj [("grant_types", .obj [("value", .arr [.str "authorization_code", .str "refresh_token"])])], none, .obj [("grant_types", .arr [])], .obj [], true⟩,
  ⟨58, .obj [("grant_types", .obj [("value", .arr [])])], .obj [("grant_types", .obj [("value", .arr [.str "authorization_code", .str "refresh_token"]), ("essential", .bool true)])], none, .obj [("grant_types", .arr [])], .obj [], true⟩,
  ⟨59, .obj [("grant_types", .obj [("value", .arr [])])], .obj [("grant_types", .obj [("value", .arr [.str "authorization_code", .str "refresh_token"])])], none, .obj [("grant_types", .arr [])], .obj [], true⟩,
  ⟨60, .obj [("grant_types", .obj [("value", .arr []), ("essential", .bool true)])], .obj [("grant_types", .obj [("value", .arr [.str "authorization_code", .str "refresh_token"]), ("essential", .bool true)])], none, .obj [], .obj [], true⟩,
  ⟨61, .obj [("grant_types", .obj [("value", .arr []), ("essential", .bool true)])], .obj [("grant_types", .obj [("value", .arr [.str "authorization_code", .str "refresh_token"])])], none, .obj [], .obj [], true⟩,
  ⟨62, .obj [("grant_types", .obj [("value", .arr [])])], .obj [("grant_types", .obj [("value", .arr [.str "authorization_code", .str "refresh_token"]), ("essential", .bool true)])], none, .obj [], .obj [], true⟩,
  ⟨63, .obj [("grant_types", .obj [("value", .arr [])])], .obj [("grant_types", .obj [("value", .arr [.str "authorization_code", .str "refresh_token"])])], none, .obj [], .obj [], true⟩,
  ⟨64, .obj [("grant_types", .obj [("value", .arr [.str "authorization_code"]), ("essential", .bool true)])], .obj [("grant_types", .obj [("value", .arr [.str "authorization_code", .str "refresh_token"]), ("essential", .bool true)])], none, .obj [("grant_types", .arr [.str "authorization_code"])], .obj [], true⟩,
  ⟨65, .obj [("grant_types", .obj [("value", .arr [.str "authorization_code"]), ("essential", .bool true)])], .obj [("grant_types", .obj [("value", .arr [.str "authorization_code", .str "refresh_token"])])], none, .obj [("grant_types", .arr [.str "authorization_code"])], .obj [], true⟩,
  ⟨66, .obj [("grant_types", .obj [("value", .arr [.str "authorization_code"])])], .obj [("grant_types", .obj [("value", .arr [.str "authorization_code", .str "refresh_token"]), ("essential", .bool true)])], none, .obj [("grant_types", .arr [.str "authorization_code"])], .obj [], true⟩,
  ⟨67, .obj [("grant_types", .obj [("value", .arr [.str "authorization_code"])])], .obj [("grant_types", .obj [("value", .arr [.str "authorization_code", .str "refresh_token"])])], none, .obj [("grant_types", .arr [.str "authorization_code"])], .obj [], true⟩,
  ⟨68, .obj [("grant_types", .obj [("value", .arr [.str "authorization_code"]), ("essential", .bool true)])], .obj [("grant_types", .obj [("value", .arr [.str "authorization_code", .str "refresh_token"]), ("essential", .bool true)])], none, .obj [("grant_types", .arr [.str "password"])], .obj [], true⟩,
  ⟨69, .obj [("grant_types", .obj [("value", .arr [.str "authorization_code"]), ("essential", .bool true)])], .obj [("grant_types", .obj [("value", .arr [.str "authorization_code", .str "refresh_token"])])], none, .obj [("grant_types", .arr [.str "password"])], .obj [], true⟩,
  ⟨70, .obj [("grant_types", .obj [("value", .arr [.str "authorization_code"])])], .obj [("grant_types", .obj [("value", .arr [.str "authorization_code", .str "refresh_token"]), ("essential", .bool true)])], none, .obj [("grant_types", .arr [.str "password"])], .obj [], true⟩,
  ⟨71, .obj [("grant_types", .obj [("value", .arr [.str "authorization_code"])])], .obj [("grant_types", .obj [("value", .arr [.str "authorization_code", .str "refresh_token"])])], none, .obj [("grant_types", .arr [.str "password"])], .obj [], true⟩,
  ⟨72, .obj [("grant_types", .obj [("value", .arr [.str "authorization_code"]), ("essential", .bool true)])], .obj [("grant_types", .obj [("value", .arr [.str "authorization_code", .str "refresh_token"]), ("essential", .bool true)])], none, .obj [("grant_types", .arr [.str "authorization_code", .str "refresh_token"])], .obj [], true⟩,
  ⟨73, .obj [("grant_types", .obj [("value", .arr [.str "authorization_code"]), ("essential", .bool true)])], .obj [("grant_types", .obj [("value", .arr [.str "authorization_code", .str "refresh_token"])])], none, .obj [("grant_types", .arr [.str "authorization_code", .str "refresh_token"])], .obj [], true⟩,
  ⟨74, .obj [("grant_types", .obj [("value", .arr [.str "authorization_code"])])], .obj [("grant_types", .obj [("value", .arr [.str "authorization_code", .str "refresh_token"]), ("essential", .bool true)])], none, .obj [("grant_types", .arr [.str "authorization_code", .str "refresh_token"])], .obj [], true⟩,
  ⟨75, .obj [("grant_types", .obj [("value", .arr [.str "authorization_code"])])], .obj [("grant_types", .obj [("value", .arr [.str "authorization_code", .str "refresh_token"])])], none, .obj [("grant_types", .arr [.str "authorization_code", .str "refresh_token"])], .obj [], true⟩,
  ⟨76, .obj [("grant_types", .obj [("value", .arr [.str "authorization_code"]), ("essential", .bool true)])], .obj [("grant_types", .obj [("value", .arr [.str "authorization_code", .str "refresh_token"]), ("essential", .bool true)])], none, .obj [("grant_types", .arr [.str "authorization_code", .str "password"])], .obj [], true⟩,
  ⟨77, .obj [("grant_types", .obj [("value", .arr [.str "authorization_code"]), ("essential", .bool true)])], .obj [("grant_types", .obj [("value", .arr [.str "authorization_code", .str "refresh_token"])])], none, .obj [("grant_types", .arr [.str "authorization_code", .str "password"])], .obj [], true⟩,
  ⟨78, .obj [("grant_types", .obj [("value", .arr [.str "authorization_code"])])], .obj [("grant_types", .obj [("value", .arr [.str "authorization_code", .str "refresh_token"]), ("essential", .bool true)])], none, .obj [("grant_types", .arr [.str "authorization_code", .str "password"])], .obj [], true⟩,
  ⟨79, .obj [("grant_types", .obj [("value", .arr [.str "authorization_code"])])], .obj [("grant_types", .obj [("value", .arr [.str "authorization_code", .str "refresh_token"])])], none, .obj [("grant_types", .arr [.str "authorization_code", .str "password"])], .obj [], true⟩,
  ⟨80, .obj [("grant_types", .obj [("value", .arr [.str "authorization_code"]), ("essential", .bool true)])], .obj [("grant_types", .obj [("value", .arr [.str "authorization_code", .str "refresh_token"]), ("essential", .bool true)])], none, .obj [("grant_types", .arr [])], .obj [], true⟩,
  ⟨81, .obj [("grant_types", .obj [("value", .arr [.str "authorization_code"]), ("essential", .bool true)])], .obj [("grant_types", .obj [("value", .arr [.str "authorization_code", .str "refresh_token"])])], none, .obj [("grant_types", .arr [])], .obj [], true⟩,
  ⟨82, .obj [("grant_types", .obj [("value", .arr [.str "authorization_code"])])], .obj [("grant_types", .obj [("value", .arr [.str "authorization_code", .str "refresh_token"]), ("essential", .bool true)])], none, .obj [("grant_types", .arr [])], .obj [], true⟩,
  ⟨83, .obj [("grant_types", .obj [("value", .arr [.str "authorization_code"])])], .obj [("grant_types", .obj [("value", .arr [.str "authorization_code", .str "refresh_token"])])], none, .obj [("grant_types", .arr [])], .obj [], true⟩,
  ⟨84, .obj [("grant_types", .obj [("value", .arr [.str "authorization_code"]), ("essential", .bool true)])], .obj [("grant_types", .obj [("value", .arr [.str "authorization_code", .str "refresh_token"]), ("essential", .bool true)])], none, .obj [], .obj [], true⟩,
  ⟨85, .obj [("grant_types", .obj [("value", .arr [.str "authorization_code"]), ("essential", .bool true)])], .obj [("grant_types", .obj [("value", .arr [.str "authorization_code", .str "refresh_token"])])], none, .obj [], .obj [], true⟩,
  ⟨86, .obj [("grant_types", .obj [("value", .arr [.str "authorization_code"])])], .obj [("grant_types", .obj [("value", .arr [.str "authorization_code", .str "refresh_token"]), ("essential", .bool true)])], none, .obj [], .obj [], true⟩,
  ⟨87, .obj [("grant_types", .obj [("value", .arr [.str "authorization_code"])])], .obj [("grant_types", .obj [("value", .arr [.str "authorization_code", .str "refresh_token"])])], none, .obj [], .obj [], true⟩,
  ⟨88, .obj [("require_auth_time", .obj [("value", .bool true)])], .obj [("require_auth_time", .obj [("value", .bool true)])], some (.obj [("require_auth_time", .obj [("value", .bool true)])]), .obj [("require_auth_time", .bool true)], .obj [("require_auth_time", .bool true)], false⟩,
  ⟨89, .obj [("require_auth_time", .obj [("value", .bool true)])], .obj [("require_auth_time", .obj [("value", .bool false)])], none, .obj [("require_auth_time", .bool true)], .obj [], true⟩,
  ⟨90, .obj [("require_auth_time", .obj [("value", .bool false)])], .obj [("require_auth_time", .obj [("value", .bool true)])], none, .obj [("require_auth_time", .bool true)], .obj [], true⟩,
  ⟨91, .obj [("require_auth_time", .obj [("value", .bool false)])], .obj [("require_auth_time", .obj [("value", .bool false)])], some (.obj [("require_auth_time", .obj [("value", .bool false)])]), .obj [("require_auth_time", .bool true)], .obj [("require_auth_time", .bool false)], false⟩,
  ⟨92, .obj [("require_auth_time", .obj [("value", .bool true)])], .obj [("require_auth_time", .obj [("value", .bool true)])], some (.obj [("require_auth_time", .obj [("value", .bool true)])]), .obj [("require_auth_time", .bool false)], .obj [("require_auth_time", .bool true)], false⟩,
  ⟨93, .obj [("require_auth_time", .obj [("value", .bool true)])], .obj [("require_auth_time", .obj [("value", .bool false)])], none, .obj [("require_auth_time", .bool false)], .obj [], true⟩,
  ⟨94, .obj [("require_auth_time", .obj [("value", .bool false)])], .obj [("require_auth_time", .obj [("value", .bool true)])], none, .obj [("require_auth_time", .bool false)], .obj [], true⟩,
  ⟨95, .obj [("require_auth_time", .obj [("value", .bool false)])], .obj [("require_auth_time", .obj [("value", .bool false)])], some (.obj [("require_auth_time", .obj [("value", .bool false)])]), .obj [("require_auth_time", .bool false)], .obj [("require_auth_time", .bool false)], false⟩,
  ⟨96, .obj [("require_auth_time", .obj [("value", .bool true)])], .obj [("require_auth_time", .obj [("value", .bool true)])], some (.obj [("require_auth_time", .obj [("value", .bool true)])]), .obj [("require_auth_time", .bool true)], .obj [("require_auth_time", .bool true)], false⟩,
  ⟨97, .obj [("require_auth_time", .obj [("value", .bool true)])], .obj [("require_auth_time", .obj [("value", .bool false)])], none, .obj [("require_auth_time", .bool true)], .obj [], true⟩,
  ⟨98, .obj [("require_auth_time", .obj [("value", .bool false)])], .obj [("require_auth_time", .obj [("value", .bool true)])], none, .obj [("require_auth_time", .bool true)], .obj [], true⟩,
  ⟨99, .obj [("require_auth_time", .obj [("value", .bool false)])], .obj [("require_auth_time", .obj [("value", .bool false)])], some (.obj [("require_auth_time", .obj [("value", .bool false)])]), .obj [("require_auth_time", .bool true)], .obj [("require_auth_time", .bool false)], false⟩,
  ⟨100, .obj [("require_auth_time", .obj [("value", .bool true)])], .obj [("require_auth_time", .obj [("value", .bool true)])], some (.obj [("require_auth_time", .obj [("value", .bool true)])]), .obj [("require_auth_time", .bool false)], .obj [("require_auth_time", .bool true)], false⟩,
  ⟨101, .obj [("require_auth_time", .obj [("value", .bool true)])], .obj [("require_auth_time", .obj [("value", .bool false)])], none, .obj [("require_auth_time", .bool false)], .obj [], true⟩,
  ⟨102, .obj [("require_auth_time", .obj [("value", .bool false)])], .obj [("require_auth_time", .obj [("value", .bool true)])], none, .obj [("require_auth_time", .bool false)], .obj [], true⟩,
  ⟨103, .obj [("require_auth_time", .obj [("value", .bool false)])], .obj [("require_auth_time", .obj [("value", .bool false)])], some (.obj [("require_auth_time", .obj [("value", .bool false)])]), .obj [("require_auth_time", .bool false)], .obj [("require_auth_time", .bool false)], false⟩,
  ⟨104, .obj [("require_auth_time", .obj [("value", .bool true)])], .obj [("require_auth_time", .obj [("value", .bool true)])], some (.obj [("require_auth_time", .obj [("value", .bool true)])]), .obj [("require_auth_time", .bool true)], .obj [("require_auth_time", .bool true)], false⟩,
  ⟨105, .obj [("require_auth_time", .obj [("value", .bool true)])], .obj [("require_auth_time", .obj [("value", .bool false)])], none, .obj [("require_auth_time", .bool true)], .obj [], true⟩,
  ⟨106, .obj [("require_auth_time", .obj [("value", .bool false)])], .obj [("require_auth_time", .obj [("value", .bool true)])], none, .obj [("require_auth_time", .bool true)], .obj [], true⟩,
  ⟨107, .obj [("require_auth_time", .obj [("value", .bool false)])], .obj [("require_auth_time", .obj [("value", .bool false)])], some (.obj [("require_auth_time", .obj [("value", .bool false)])]), .obj [("require_auth_time", .bool true)], .obj [("require_auth_time", .bool false)], false⟩,
  ⟨108, .obj [("require_auth_time", .obj [("value", .bool true)])], .obj [("require_auth_time", .obj [("value", .bool true)])], some (.obj [("require_auth_time", .obj [("value", .bool true)])]), .obj [("require_auth_time", .bool false)], .obj [("require_auth_time", .bool true)], false⟩,
  ⟨109, .obj [("require_auth_time", .obj [("value", .bool true)])], .obj [("require_auth_time", .obj [("value", .bool false)])], none, .obj [("require_auth_time", .bool false)], .obj [], true⟩,
  ⟨110, .obj [("require_auth_time", .obj [("value", .bool false)])], .obj [("require_auth_time", .obj [("value", .bool true)])], none, .obj [("require_auth_time", .bool false)], .obj [], true⟩,
  ⟨111, .obj [("require_auth_time", .obj [("value", .bool false)])], .obj [("require_auth_time", .obj [("value", .bool false)])], some (.obj [("require_auth_time", .obj [("value", .bool false)])]), .obj [("require_auth_time", .bool false)], .obj [("require_auth_time", .bool false)], false⟩,
  ⟨112, .obj [("grant_types", .obj [("value", .arr []), ("essential", .bool true)])], .obj [("grant_types", .obj [("add", .arr [.str "authorization_code"]), ("essential", .bool true)])], none, .obj [("grant_types", .arr [.str "authorization_code"])], .obj [], true⟩,
  ⟨113, .obj [("grant_types", .obj [("value", .arr []), ("essential", .bool true)])], .obj [("grant_types", .obj [("add", .arr [.str "authorization_code"])])], none, .obj [("grant_types", .arr [.str "authorization_code"])], .obj [], true⟩,
  ⟨114, .obj [("grant_types", .obj [("value", .arr [])])], .obj [("grant_types", .obj [("add", .arr [.str "authorization_code"]), ("essential", .bool true)])], none, .obj [("grant_types", .arr [.str "authorization_code"])], .obj [], true⟩,
  ⟨115, .obj [("grant_types", .obj [("value", .arr [])])], .obj [("grant_types", .obj [("add", .arr [.str "authorization_code"])])], none, .obj [("grant_types", .arr [.str "authorization_code"])], .obj [], true⟩,
  ⟨116, .obj [("grant_types", .obj [("value", .arr []), ("essential", .bool true)])], .obj [("grant_types", .obj [("add", .arr [.str "authorization_code"]), ("essential", .bool true)])], none, .obj [("grant_types", .arr [.str "password"])], .obj [], true⟩,
  ⟨117, .obj [("grant_types", .obj [("value", .arr []), ("essential", .bool true)])], .obj [("grant_types", .obj [("add", .arr [.str "authorization_code"])])], none, .obj [("grant_types", .arr [.str "password"])], .obj [], true⟩,
  ⟨118, .obj [("grant_types", .obj [("value", .arr [])])], .obj [("grant_types", .obj [("add", .arr [.str "authorization_code"]), ("essential", .bool true)])], none, .obj [("grant_types", .arr [.str "password"])], .obj [], true⟩,
  ⟨119, .obj [("grant_types", .obj [("value", .arr [])])], .obj [("grant_types", .obj [("add", .arr [.str "authorization_code"])])], none, .obj [("grant_types", .arr [.str "password"])], .obj [], true⟩,
  ⟨120, .obj [("grant_types", .obj [("value", .arr []), ("essential", .bool true)])], .obj [("grant_types", .obj [("add", .arr [.str "authorization_code"]), ("essential", .bool true)])], none, .obj [("grant_types", .arr [.str "authorization_code", .str "refresh_token"])], .obj [], true⟩,
  ⟨121, .obj [("grant_types", .obj [("value", .arr []), ("essential", .bool true)])], .obj [("grant_types", .obj [("add", .arr [.str "authorization_code"])])], none, .obj [("grant_types", .arr [.str "authorization_code", .str "refresh_token"])], .obj [], true⟩,
  ⟨122, .obj [("grant_types", .obj [("value", .arr [])])], .obj [("grant_types", .obj [("add", .arr [.str "authorization_code"]), ("essential", .bool true)])], none, .obj [("grant_types", .arr [.str "authorization_code", .str "refresh_token"])], .obj [], true⟩,
  ⟨123, .obj [("grant_types", .obj [("value", .arr [])])], .obj [("grant_types", .obj [("add", .arr [.str "authorization_code"])])], none, .obj [("grant_types", .arr [.str "authorization_code", .str "refresh_token"])], .obj [], true⟩,
  ⟨124, .obj [("grant_types", .obj [("value", .arr []), ("essential", .bool true)])], .obj [("grant_types", .obj [("add", .arr [.str "authorization_code"]), ("essential", .bool true)])], none, .obj [("grant_types", .arr [.str "authorization_code", .str "password"])], .obj [], true⟩,
  ⟨125, .obj [("grant_types", .obj [("value", .arr []), ("essential", .bool true)])], .obj [("grant_types", .obj [("add", .arr [.str "authorization_code"])])], none, .obj [("grant_types", .arr [.str "authorization_code", .str "password"])], .obj [], true⟩,
  ⟨126, .obj [("grant_types", .obj [("value", .arr [])])], .obj [("grant_types", .obj [("add", .arr [.str "authorization_code"]), ("essential", .bool true)])], none, .obj [("grant_types", .arr [.str "authorization_code", .str "password"])], .obj [], true⟩,
  ⟨127, .obj [("grant_types", .obj [("value", .arr [])])], .obj [("grant_types", .obj [("add", .arr [.str "authorization_code"])])], none, .obj [("grant_types", .arr [.str "authorization_code", .str "password"])], .obj [], true⟩,
  ⟨128, .obj [("grant_types", .obj [("value", .arr []), ("essential", .bool true)])], .obj [("grant_types", .obj [("add", .arr [.str "authorization_code"]), ("essential", .bool true)])], none, .obj [("grant_types", .arr [])], .obj [], true⟩,
  ⟨129, .obj [("grant_types", .obj [("value", .arr []), ("essential", .bool true)])], .obj [("grant_types", .obj [("add", .arr [.str "authorization_code"])])], none, .obj [("grant_types", .arr [])], .obj [], true⟩,
  ⟨130, .obj [("grant_types", .obj [("value", .arr [])])], .obj [("grant_types", .obj [("add", .arr [.str "authorization_code"]), ("essential", .bool true)])], none, .obj [("grant_types", .arr [])], .obj [], true⟩,
  ⟨131, .obj [("grant_types", .obj [("value", .arr [])])], .obj [("grant_types", .obj [("add", .arr [.str "authorization_code"])])], none, .obj [("grant_types", .arr [])], .obj [], true⟩,
  ⟨132, .obj [("grant_types", .obj [("value", .arr []), ("essential", .bool true)])], .obj [("grant_types", .obj [("add", .arr [.str "authorization_code"]), ("essential", .bool true)])], none, .obj [], .obj [], true⟩,
  ⟨133, .obj [("grant_types", .obj [("value", .arr []), ("essential", .bool true)])], .obj [("grant_types", .obj [("add", .arr [.str "authorization_code"])])], none, .obj [], .obj [], true⟩,
  ⟨134, .obj [("grant_types", .obj [("value", .arr [])])], .obj [("grant_types", .obj [("add", .arr [.str "authorization_code"]), ("essential", .bool true)])], none, .obj [], .obj [], true⟩,
  ⟨135, .obj [("grant_types", .obj [("value", .arr [])])], .obj [("grant_types", .obj [("add", .arr [.str "authorization_code"])])], none, .obj [], .obj [], true⟩,
  ⟨136, .obj [("grant_types", .obj [("value", .arr []), ("essential", .bool true)])], .obj [("grant_types", .obj [("add", .arr [.str "authorization_code", .str "refresh_token"]), ("essential", .bool true)])], none, .obj [("grant_types", .arr [.str "authorization_code"])], .obj [], true⟩,
  ⟨137, .obj [("grant_types", .obj [("value", .arr []), ("essential", .bool true)])], .obj [("grant_types", .obj [("add", .arr [.str "authorization_code", .str "refresh_token"])])], none, .obj [("grant_types", .arr [.str "authorization_code"])], .obj [], true⟩,
  ⟨138, .obj [("grant_types", .obj [("value", .arr [])])], .obj [("grant_types", .obj [("add", .arr [.str "authorization_code", .str "refresh_token"]), ("essential", .bool true)])], none, .obj [("grant_types", .arr [.str "authorization_code"])], .obj [], true⟩,
  ⟨139, .obj [("grant_types", .obj [("value", .arr [])])], .obj [("grant_types", .obj [("add", .arr [.str "authorization_code", .str "refresh_token"])])], none, .obj [("grant_types", .arr [.str "authorization_code"])], .obj [], true⟩,
  ⟨140, .obj [("grant_types", .obj [("value", .arr []), ("essential", .bool true)])], .obj [("grant_types", .obj [("add", .arr [.str "authorization_code", .str "refresh_token"]), ("essential", .bool true)])], none, .obj [("grant_types", .arr [.str "password"])], .obj [], true⟩,
  ⟨141, .obj [("grant_types", .obj [("value", .arr []), ("essential", .bool true)])], .obj [("grant_types", .obj [("add", .arr [.str "authorization_code", .str "refresh_token"])])], none, .obj [("grant_types", .arr [.str "password"])], .obj [], true⟩,
  ⟨142, .obj [("grant_types", .obj [("value", .arr [])])], .obj [("grant_types", .obj [("add", .arr [.str "authorization_code", .str "refresh_token"]), ("essential", .bool true)])], none, .obj [("grant_types", .arr [.str "password"])], .obj [], true⟩,
  ⟨143, .obj [("grant_types", .obj [("value", .arr [])])], .obj [("grant_types", .obj [("add", .arr [.str "authorization_code", .str "refresh_token"])])], none, .obj [("grant_types", .arr [.str "password"])], .obj [], true⟩,
  ⟨144, .obj [("grant_types", .obj [("value", .arr []), ("essential", .bool true)])], .obj [("grant_types", .obj [("add", .arr [.str "authorization_code", .str "refresh_token"]), ("essential", .bool true)])], none, .obj [("grant_types", .arr [.str "authorization_code", .str "refresh_token"])], .obj [], true⟩,
  ⟨145, .obj [("grant_types", .obj [("value", .arr []), ("essential", .bool true)])], .obj [("grant_types", .obj [("add", .arr [.str "authorization_code", .str "refresh_token"])])], none, .obj [("grant_types", .arr [.str "authorization_code", .str "refresh_token"])], .obj [], true⟩,
  ⟨146, .obj [("grant_types", .obj [("value", .arr [])])], .obj [("grant_types", .obj [("add", .arr [.str "authorization_code", .str "refresh_token"]), ("essential", .bool true)])], none, .obj [("grant_types", .arr [.str "authorization_code", .str "refresh_token"])], .obj [], true⟩,
  ⟨147, .obj [("grant_types", .obj [("value", .arr [])])], .obj [("grant_types", .obj [("add", .arr [.str "authorization_code", .str "refresh_token"])])], none, .obj [("grant_types", .arr [.str "authorization_code", .str "refresh_token"])], .obj [], true⟩,
  ⟨148, .obj [("grant_types", .obj [("value", .arr []), ("essential", .bool true)])], .obj [("grant_types", .obj [("add", .arr [.str "authorization_code", .str "refresh_token"]), ("essential", .bool true)])], none, .obj [("grant_types", .arr [.str "authorization_code", .str "password"])], .obj [], true⟩,
  ⟨149, .obj [("grant_types", .obj [("value", .arr []), ("essential", .bool true)])], .obj [("grant_types", .obj [("add", .arr [.str "authorization_code", .str "refresh_token"])])], none, .obj [("grant_types", .arr [.str "authorization_code", .str "password"])], .obj [], true⟩,
  ⟨150, .obj [("grant_types", .obj [("value", .arr [])])], .obj [("grant_types", .obj [("add", .arr [.str "authorization_code", .str "refresh_token"]), ("essential", .bool true)])], none, .obj [("grant_types", .arr [.str "authorization_code", .str "password"])], .obj [], true⟩,
  ⟨151, .obj [("grant_types", .obj [("value", .arr [])])], .obj [("grant_types", .obj [("add", .arr [.str "authorization_code", .str "refresh_token"])])], none, .obj [("grant_types", .arr [.str "authorization_code", .str "password"])], .obj [], true⟩,
  ⟨152, .obj [("grant_types", .obj [("value", .arr []), ("essential", .bool true)])], .obj [("grant_types", .obj [("add", .arr [.str "authorization_code", .str "refresh_token"]), ("essential", .bool true)])], none, .obj [("grant_types", .arr [])], .obj [], true⟩,
  ⟨153, .obj [("grant_types", .obj [("value", .arr []), ("essential", .bool true)])], .obj [("grant_types", .obj [("add", .arr [.str "authorization_code", .str "refresh_token"])])], none, .obj [("grant_types", .arr [])], .obj [], true⟩,
  ⟨154, .obj [("grant_types", .obj [("value", .arr [])])], .obj [("grant_types", .obj [("add", .arr [.str "authorization_code", .str "refresh_token"]), ("essential", .bool true)])], none, .obj [("grant_types", .arr [])], .obj [], true⟩,
  ⟨155, .obj [("grant_types", .obj [("value", .arr [])])], .obj [("grant_types", .obj [("add", .arr [.str "authorization_code", .str "refresh_token"])])], none, .obj [("grant_types", .arr [])], .obj [], true⟩,
  ⟨156, .obj [("grant_types", .obj [("value", .arr []), ("essential", .bool true)])], .obj [("grant_types", .obj [("add", .arr [.str "authorization_code", .str "refresh_token"]), ("essential", .bool true)])], none, .obj [], .obj [], true⟩,
  ⟨157, .obj [("grant_types", .obj [("value", .arr []), ("essential", .bool true)])], .obj [("grant_types", .obj [("add", .arr [.str "authorization_code", .str "refresh_token"])])], none, .obj [], .obj [], true⟩,
  ⟨158, .obj [("grant_types", .obj [("value", .arr [])])], .obj [("grant_types", .obj [("add", .arr [.str "authorization_code", .str "refresh_token"]), ("essential", .bool true)])], none, .obj [], .obj [], true⟩,
  ⟨159, .obj [("grant_types", .obj [("value", .arr [])])], .obj [("grant_types", .obj [("add", .arr [.str "authorization_code", .str "refresh_token"])])], none, .obj [], .obj [], true⟩,
  ⟨160, .obj [("grant_types", .obj [("value", .arr [.str "authorization_code"]), ("essential", .bool true)])], .obj [("grant_types", .obj [("add", .arr [.str "authorization_code", .str "refresh_token"]), ("essential", .bool true)])], none, .obj [("grant_types", .arr [.str "authorization_code"])], .obj [], true⟩,
  ⟨161, .obj [("grant_types", .obj [("value", .arr [.str "authorization_code"]), ("essential", .bool true)])], .obj [("grant_types", .obj [("add", .arr [.str "authorization_code", .str "refresh_token"])])], none, .obj [("grant_types", .arr [.str "authorization_code"])], .obj [], true⟩,
  ⟨162, .obj [("grant_types", .obj [("value", .arr [.str "authorization_code"])])], .obj [("grant_types", .obj [("add", .arr [.str "authorization_code", .str "refresh_token"]), ("essential", .bool true)])], none, .obj [("grant_types", .arr [.str "authorization_code"])], .obj [], true⟩,
  ⟨163, .obj [("grant_types", .obj [("value", .arr [.str "authorization_code"])])], .obj [("grant_types", .obj [("add", .arr [.str "authorization_code", .str "refresh_token"])])], none, .obj [("grant_types", .arr [.str "authorization_code"])], .obj [], true⟩,
  ⟨164, .obj [("grant_types", .obj [("value", .arr [.str "authorization_code"]), ("essential", .bool true)])], .obj [("grant_types", .obj [("add", .arr [.str "authorization_code", .str "refresh_token"]), ("essential", .bool true)])], none, .obj [("grant_types", .arr [.str "password"])], .obj [], true⟩,
  ⟨165, .obj [("grant_types", .obj [("value", .arr [.str "authorization_code"]), ("essential", .bool true)])], .obj [("grant_types", .obj [("add", .arr [.str "authorization_code", .str "refresh_token"])])], none, .obj [("grant_types", .arr [.str "password"])], .obj [], true⟩,
  ⟨166, .obj [("grant_types", .obj [("value", .arr [.str "authorization_code"])])], .obj [("grant_types", .obj [("add", .arr [.str "authorization_code", .str "refresh_token"]), ("essential", .bool true)])], none, .obj [("grant_types", .arr [.str "password"])], .obj [], true⟩,
  ⟨167, .obj [("grant_types", .obj [("value", .arr [.str "authorization_code"])])], .obj [("grant_types", .obj [("add", .arr [.str "authorization_code", .str "refresh_token"])])], none, .obj [("grant_types", .arr [.str "password"])], .obj [], true⟩,
  ⟨168, .obj [("grant_types", .obj [("value", .arr [.str "authorization_code"]), ("essential", .bool true)])], .obj [("grant_types", .obj [("add", .arr [.str "authorization_code", .str "refresh_token"]), ("essential", .bool true)])], none, .obj [("grant_types", .arr [.str "authorization_code", .str "refresh_token"])], .obj [], true⟩,
  ⟨169, .obj [("grant_types", .obj [("value", .arr [.str "authorization_code"]), ("essential", .bool true)])], .obj [("grant_types", .obj [("add", .arr [.str "authorization_code", .str "refresh_token"])])], none, .obj [("grant_types", .arr [.str "authorization_code", .str "refresh_token"])], .obj [], true⟩,
  ⟨170, .obj [("grant_types", .obj [("value", .arr [.str "authorization_code"])])], .obj [("grant_types", .obj [("add", .arr [.str "authorization_code", .str "refresh_token"]), ("essential", .bool true)])], none, .obj [("grant_types", .arr [.str "authorization_code", .str "refresh_token"])], .obj [], true⟩,
  ⟨171, .obj [("grant_types", .obj [("value", .arr [.str "authorization_code"])])], .obj [("grant_types", .obj [("add", .arr [.str "authorization_code", .str "refresh_token"])])], none, .obj [("grant_types", .arr [.str "authorization_code", .str "refresh_token"])], .obj [], true⟩,
  ⟨172, .obj [("grant_types", .obj [("value", .arr [.str "authorization_code"]), ("essential", .bool true)])], .obj [("grant_types", .obj [("add", .arr [.str "authorization_code", .str "refresh_token"]), ("essential", .bool true)])], none, .obj [("grant_types", .arr [.str "authorization_code", .str "password"])], .obj [], true⟩,
  ⟨173, .obj [("grant_types", .obj [("value", .arr [.str "authorization_code"]), ("essential", .bool true)])], .obj [("grant_types", .obj [("add", .arr [.str "authorization_code", .str "refresh_token"])])], none, .obj [("grant_types", .arr [.str "authorization_code", .str "password"])], .obj [], true⟩,
  ⟨174, .obj [("grant_types", .obj [("value", .arr [.str "authorization_code"])])], .obj [("grant_types", .obj [("add", .arr [.str "authorization_code", .str "refresh_token"]), ("essential", .bool true)])], none, .obj [("grant_types", .arr [.str "authorization_code", .str "password"])], .obj [], true⟩,
  ⟨175, .obj [("grant_types", .obj [("value", .arr [.str "authorization_code"])])], .obj [("grant_types", .obj [("add", .arr [.str "authorization_code", .str "refresh_token"])])], none, .obj [("grant_types", .arr [.str "authorization_code", .str "password"])], .obj [], true⟩,
  ⟨176, .obj [("grant_types", .obj [("value", .arr [.str "authorization_code"]), ("essential", .bool true)])], .obj [("grant_types", .obj [("add", .arr [.str "authorization_code", .str "refresh_token"]), ("essential", .bool true)])], none, .obj [("grant_types", .arr [])], .obj [], true⟩,
  ⟨177, .obj [("grant_types", .obj [("value", .arr [.str "authorization_code"]), ("essential", .bool true)])], .obj [("grant_types", .obj [("add", .arr [.str "authorization_code", .str "refresh_token"])])], none, .obj [("grant_types", .arr [])], .obj [], true⟩,
  ⟨178, .obj [("grant_types", .obj [("value", .arr [.str "authorization_code"])])], .obj [("grant_types", .obj [("add", .arr [.str "authorization_code", .str "refresh_token"]), ("essential", .bool true)])], none, .obj [("grant_types", .arr [])], .obj [], true⟩,
  ⟨179, .obj [("grant_types", .obj [("value", .arr [.str "authorization_code"])])], .obj [("grant_types", .obj [("add", .arr [.str "authorization_code", .str "refresh_token"])])], none, .obj [("grant_types", .arr [])], .obj [], true⟩,
  ⟨180, .obj [("grant_types", .obj [("value", .arr [.str "authorization_code"]), ("essential", .bool true)])], .obj [("grant_types", .obj [("add", .arr [.str "authorization_code", .str "refresh_token"]), ("essential", .bool true)])], none, .obj [], .obj [], true⟩,
  ⟨181, .obj [("grant_types", .obj [("value", .arr [.str "authorization_code"]), ("essential", .bool true)])], .obj [("grant_types", .obj [("add", .arr [.str "authorization_code", .str "refresh_token"])])], none, .obj [], .obj [], true⟩,
  ⟨182, .obj [("grant_types", .obj [("value", .arr [.str "authorization_code"])])], .obj [("grant_types", .obj [("add", .arr [.str "authorization_code", .str "refresh_token"]), ("essential", .bool true)])], none, .obj [], .obj [], true⟩,
  ⟨183, .obj [("grant_types", .obj [("value", .arr [.str "authorization_code"])])], .obj [("grant_types", .obj [("add", .arr [.str "authorization_code", .str "refresh_token"])])], none, .obj [], .obj [], true⟩,
  ⟨184, .obj [("id_token_signed_response_alg", .obj [("value", .str "RS256"), ("essential", .bool true)])], .obj [("id_token_signed_response_alg", .obj [("default", .str "RS256"), ("essential", .bool true)])], some (.obj [("id_token_signed_response_alg", .obj [("default", .str "RS256"), ("value", .str "RS256"), ("essential", .bool true)])]), .obj [("id_token_signed_response_alg", .str "RS256")], .obj [("id_token_signed_response_alg", .str "RS256")], false⟩,
  ⟨185, .obj [("id_token_signed_response_alg", .obj [("value", .str "RS256"), ("essential", .bool true)])], .obj [("id_token_signed_response_alg", .obj [("default", .str "RS256")])], some (.obj [("id_token_signed_response_alg", .obj [("default", .str "RS256"), ("value", .str "RS256"), ("essential", .bool true)])]), .obj [("id_token_signed_response_alg", .str "RS256")], .obj [("id_token_signed_response_alg", .str "RS256")], false⟩,
  ⟨186, .obj [("id_token_signed_response_alg", .obj [("value", .str "RS256")])], .obj [("id_token_signed_response_alg", .obj [("default", .str "RS256"), ("essential", .bool true)])], some (.obj [("id_token_signed_response_alg", .obj [("default", .str "RS256"), ("value", .str "RS256"), ("essential", .bool true)])]), .obj [("id_token_signed_response_alg", .str "RS256")], .obj [("id_token_signed_response_alg", .str "RS256")], false⟩,
  ⟨187, .obj [("id_token_signed_response_alg", .obj [("value", .str "RS256")])], .obj [("id_token_signed_response_alg", .obj [("default", .str "RS256")])], some (.obj [("id_token_signed_response_alg", .obj [("default", .str "RS256"), ("value", .str "RS256")])]), .obj [("id_token_signed_response_alg", .str "RS256")], .obj [("id_token_signed_response_alg", .str "RS256")], false⟩,
  ⟨188, .obj [("id_token_signed_response_alg", .obj [("value", .str "RS256"), ("essential", .bool true)])], .obj [("id_token_signed_response_alg", .obj [("default", .str "RS256"), ("essential", .bool true)])], some (.obj [("id_token_signed_response_alg", .obj [("default", .str "RS256"), ("value", .str "RS256"), ("essential", .bool true)])]), .obj [("id_token_signed_response_alg", .str "EdDSA")], .obj [("id_token_signed_response_alg", .str "RS256")], false⟩,
  ⟨189, .obj [("id_token_signed_response_alg", .obj [("value", .str "RS256"), ("essential", .bool true)])], .obj [("id_token_signed_response_alg", .obj [("default", .str "RS256")])], some (.obj [("id_token_signed_response_alg", .obj [("default", .str "RS256"), ("value", .str "RS256"), ("essential", .bool true)])]), .obj [("id_token_signed_response_alg", .str "EdDSA")], .obj [("id_token_signed_response_alg", .str "RS256")], false⟩,
  ⟨190, .obj [("id_token_signed_response_alg", .obj [("value", .str "RS256")])], .obj [("id_token_signed_response_alg", .obj [("default", .str "RS256"), ("essential", .bool true)])], some (.obj [("id_token_signed_response_alg", .obj [("default", .str "RS256"), ("value", .str "RS256"), ("essential", .bool true)])]), .obj [("id_token_signed_response_alg", .str "EdDSA")], .obj [("id_token_signed_response_alg", .str "RS256")], false⟩,
  ⟨191, .obj [("id_token_signed_response_alg", .obj [("value", .str "RS256")])], .obj [("id_token_signed_response_alg", .obj [("default", .str "RS256")])], some (.obj [("id_token_signed_response_alg", .obj [("default", .str "RS256"), ("value", .str "RS256")])]), .obj [("id_token_signed_response_alg", .str "EdDSA")], .obj [("id_token_signed_response_alg", .str "RS256")], false⟩,
  ⟨192, .obj [("id_token_signed_response_alg", .obj [("value", .str "RS256"), ("essential", .bool true)])], .obj [("id_token_signed_response_alg", .obj [("default", .str "RS256"), ("essential", .bool true)])], some (.obj [("id_token_signed_response_alg", .obj [("default", .str "RS256"), ("value", .str "RS256"), ("essential", .bool true)])]), .obj [], .obj [("id_token_signed_response_alg", .str "RS256")], false⟩,
  ⟨193, .obj [("id_token_signed_response_alg", .obj [("value", .str "RS256"), ("essential", .bool true)])], .obj [("id_token_signed_response_alg", .obj [("default", .str "RS256")])], some (.obj [("id_token_signed_response_alg", .obj [("default", .str "RS256"), ("value", .str "RS256"), ("essential", .bool true)])]), .obj [], .obj [("id_token_signed_response_alg", .str "RS256")], false⟩,
  ⟨194, .obj [("id_token_signed_response_alg", .obj [("value", .str "RS256")])], .obj [("id_token_signed_response_alg", .obj [("default", .str "RS256"), ("essential", .bool true)])], some (.obj [("id_token_signed_response_alg", .obj [("default", .str "RS256"), ("value", .str "RS256"), ("essential", .bool true)])]), .obj [], .obj [("id_token_signed_response_alg", .str "RS256")], false⟩,
  ⟨195, .obj [("id_token_signed_response_alg", .obj [("value", .str "RS256")])], .obj [("id_token_signed_response_alg", .obj [("default", .str "RS256")])], some (.obj [("id_token_signed_response_alg", .obj [("default", .str "RS256"), ("value", .str "RS256")])]), .obj [], .obj [("id_token_signed_response_alg", .str "RS256")], false⟩,
  ⟨196, .obj [("logo_uri", .obj [("value", .null)])], .obj [("logo_uri", .obj [("default", .str "https://example.com/logo.png")])], none, .obj [("logo_uri", .str "https://example.com/logo.png")], .obj [], true⟩,
  ⟨197, .obj [("logo_uri", .obj [("value", .null)])], .obj [("logo_uri", .obj [("default", .str "https://example.com/logo.png")])], none, .obj [("logo_uri", .str "https://images.example.com/logo.jpg")], .obj [], true⟩,
  ⟨198, .obj [("logo_uri", .obj [("value", .null)])], .obj [("logo_uri", .obj [("default", .str "https://example.com/logo.png")])], none, .obj [], .obj [], true⟩,
  ⟨199, .obj [("grant_types", .obj [("value", .arr []), ("essential", .bool true)])], .obj [("grant_types", .obj [("default", .arr [.str "authorization_code"]), ("essential", .bool true)])], some (.obj [("grant_types", .obj [("default", .arr [.str "authorization_code"]), ("value", .arr []), ("essential", .bool true)])]), .obj [("grant_types", .arr [.str "authorization_code"])], .obj [("grant_types", .arr [])], false⟩,
  ⟨200, .obj [("grant_types", .obj [("value", .arr []), ("essential", .bool true)])], .obj [("grant_types", .obj [("default", .arr [.str "authorization_code"])])], some (.obj [("grant_types", .obj [("default", .arr [.str "authorization_code"]), ("value", .arr []), ("essential", .bool true)])]), .obj [("grant_types", .arr [.str "authorization_code"])], .obj [("grant_types", .arr [])], false⟩,
  ⟨201, .obj [("grant_types", .obj [("value", .arr [])])], .obj [("grant_types", .obj [("default", .arr [.str "authorization_code"]), ("essential", .bool true)])], some (.obj [("grant_types", .obj [("default", .arr [.str "authorization_code"]), ("value", .arr []), ("essential", .bool true)])]), .obj [("grant_types", .arr [.str "authorization_code"])], .obj [("grant_types", .arr [])], false⟩,
  ⟨202, .obj [("grant_types", .obj [("value", .arr [])])], .obj [("grant_types", .obj [("default", .arr [.str "authorization_code"])])], some (.obj [("grant_types", .obj [("default", .arr [.str "authorization_code"]), ("value", .arr [])])]), .obj [("grant_types", .arr [.str "authorization_code"])], .obj [("grant_types", .arr [])], false⟩,
  ⟨203, .obj [("grant_types", .obj [("value", .arr []), ("essential", .bool true)])], .obj [("grant_types", .obj [("default", .arr [.str "authorization_code"]), ("essential", .bool true)])], some (.obj [("grant_types", .obj [("default", .arr [.str "authorization_code"]), ("value", .arr []), ("essential", .bool true)])]), .obj [("grant_types", .arr [.str "password"])], .obj [("grant_types", .arr [])], false⟩,
  ⟨204, .obj [("grant_types", .obj [("value", .arr []), ("essential", .bool true)])], .obj [("grant_types", .obj [("default", .arr [.str "authorization_code"])])], some (.obj [("grant_types", .obj [("default", .arr [.str "authorization_code"]), ("value", .arr []), ("essential", .bool true)])]), .obj [("grant_types", .arr [.str "password"])], .obj [("grant_types", .arr [])], false⟩,
  ⟨205, .obj [("grant_types", .obj [("value", .arr [])])], .obj [("grant_types", .obj [("default", .arr [.str "authorization_code"]), ("essential", .bool true)])], some (.obj [("grant_types", .obj [("default", .arr [.str "authorization_code"]), ("value", .arr []), ("essential", .bool true)])]), .obj [("grant_types", .arr [.str "password"])], .obj [("grant_types", .arr [])], false⟩,
  ⟨206, .obj [("grant_types", .obj [("value", .arr [])])], .obj [("grant_types", .obj [("default", .arr [.str "authorization_code"])])], some (.obj [("grant_types", .obj [("default", .arr [.str "authorization_code"]), ("value", .arr [])])]), .obj [("grant_types", .arr [.str "password"])], .obj [("grant_types", .arr [])], false⟩,
  ⟨207, .obj [("grant_types", .obj [("value", .arr []), ("essential", .bool true)])], .obj [("grant_types", .obj [("default", .arr [.str "authorization_code"]), ("essential", .bool true)])], some (.obj [("grant_types", .obj [("default", .arr [.str "authorization_code"]), ("value", .arr []), ("essential", .bool true)])]), .obj [("grant_types", .arr [.str "authorization_code", .str "refresh_token"])], .obj [("grant_types", .arr [])], false⟩,
  ⟨208, .obj [("grant_types", .obj [("value", .arr []), ("essential", .bool true)])], .obj [("grant_types", .obj [("default", .arr [.str "authorization_code"])])], some (.obj [("grant_types", .obj [("default", .arr [.str "authorization_code"]), ("value", .arr []), ("essential", .bool true)])]), .obj [("grant_types", .arr [.str "authorization_code", .str "refresh_token"])], .obj [("grant_types", .arr [])], false⟩,
  ⟨209, .obj [("grant_types", .obj [("value", .arr [])])], .obj [("grant_types", .obj [("default", .arr [.str "authorization_code"]), ("essential", .bool true)])], some (.obj [("grant_types", .obj [("default", .arr [.str "authorization_code"]), ("value", .arr []), ("essential", .bool true)])]), .obj [("grant_types", .arr [.str "authorization_code", .str "refresh_token"])], .obj [("grant_types", .arr [])], false⟩,
  ⟨210, .obj [("grant_types", .obj [("value", .arr [])])], .obj [("grant_types", .obj [("default", .arr [.str "authorization_code"])])], some (.obj [("grant_types", .obj [("default", .arr [.str "authorization_code"]), ("value", .arr [])])]), .obj [("grant_types", .arr [.str "authorization_code", .str "refresh_token"])], .obj [("grant_types", .arr [])], false⟩,
  ⟨211, .obj [("grant_types", .obj [("value", .arr []), ("essential", .bool true)])], .obj [("grant_types", .obj [("default", .arr [.str "authorization_code"]), ("essential", .bool true)])], some (.obj [("grant_types", .obj [("default", .arr [.str "authorization_code"]), ("value", .arr []), ("essential", .bool true)])]), .obj [("grant_types", .arr [.str "authorization_code", .str "password"])], .obj [("grant_types", .arr [])], false⟩,
  ⟨212, .obj [("grant_types", .obj [("value", .arr []), ("essential", .bool true)])], .obj [("grant_types", .obj [("default", .arr [.str "authorization_code"])])], some (.obj [("grant_types", .obj [("default", .arr [.str "authorization_code"]), ("value", .arr []), ("essential", .bool true)])]), .obj [("grant_types", .arr [.str "authorization_code", .str "password"])], .obj [("grant_types", .arr [])], false⟩,
  ⟨213, .obj [("grant_types", .obj [("value", .arr [])])], .obj [("grant_types", .obj [("default", .arr [.str "authorization_code"]), ("essential", .bool true)])], some (.obj [("grant_types", .obj [("default", .arr [.str "authorization_code"]), ("value", .arr []), ("essential", .bool true)])]), .obj [("grant_types", .arr [.str "authorization_code", .str "password"])], .obj [("grant_types", .arr [])], false⟩,
  ⟨214, .obj [("grant_types", .obj [("value", .arr [])])], .obj [("grant_types", .obj [("default", .arr [.str "authorization_code"])])], some (.obj [("grant_types", .obj [("default", .arr [.str "authorization_code"]), ("value", .arr [])])]), .obj [("grant_types", .arr [.str "authorization_code", .str "password"])], .obj [("grant_types", .arr [])], false⟩,
  ⟨215, .obj [("grant_types", .obj [("value", .arr []), ("essential", .bool true)])], .obj [("grant_types", .obj [("default", .arr [.str "authorization_code"]), ("essential", .bool true)])], some (.obj [("grant_types", .obj [("default", .arr [.str "authorization_code"]), ("value", .arr []), ("essential", .bool true)])]), .obj [("grant_types", .arr [])], .obj [("grant_types", .arr [])], false⟩,
  ⟨216, .obj [("grant_types", .obj [("value", .arr []), ("essential", .bool true)])], .obj [("grant_types", .obj [("default", .arr [.str "authorization_code"])])], some (.obj [("grant_types", .obj [("default", .arr [.str "authorization_code"]), ("value", .arr []), ("essential", .bool true)])]), .obj [("grant_types", .arr [])], .obj [("grant_types", .arr [])], false⟩,
  ⟨217, .obj [("grant_types", .obj [("value", .arr [])])], .obj [("grant_types", .obj [("default", .arr [.str "authorization_code"]), ("essential", .bool true)])], some (.obj [("grant_types", .obj [("default", .arr [.str "authorization_code"]), ("value", .arr []), ("essential", .bool true)])]), .obj [("grant_types", .arr [])], .obj [("grant_types", .arr [])], false⟩,
  ⟨218, .obj [("grant_types", .obj [("value", .arr [])])], .obj [("grant_types", .obj [("default", .arr [.str "authorization_code"])])], some (.obj [("grant_types", .obj [("default", .arr [.str "authorization_code"]), ("value", .arr [])])]), .obj [("grant_types", .arr [])], .obj [("grant_types", .arr [])], false⟩,
  ⟨219, .obj [("grant_types", .obj [("value", .arr []), ("essential", .bool true)])], .obj [("grant_types", .obj [("default", .arr [.str "authorization_code"]), ("essential", .bool true)])], some (.obj [("grant_types", .obj [("default", .arr [.str "authorization_code"]), ("value", .arr []), ("essential", .bool true)])]), .obj [], .obj [("grant_types", .arr [])], false⟩,
  ⟨220, .obj [("grant_types", .obj [("value", .arr []), ("essential", .bool true)])], .obj [("grant_types", .obj [("default", .arr [.str "authorization_code"])])], some (.obj [("grant_types", .obj [("default", .arr [.str "authorization_code"]), ("value", .arr []), ("essential", .bool true)])]), .obj [], .obj [("grant_types", .arr [])], false⟩,
  ⟨221, .obj [("grant_types", .obj [("value", .arr [])])], .obj [("grant_types", .obj [("default", .arr [.str "authorization_code"]), ("essential", .bool true)])], some (.obj [("grant_types", .obj [("default", .arr [.str "authorization_code"]), ("value", .arr []), ("essential", .bool true)])]), .obj [], .obj [("grant_types", .arr [])], false⟩,
  ⟨222, .obj [("grant_types", .obj [("value", .arr [])])], .obj [("grant_types", .obj [("default", .arr [.str "authorization_code"])])], some (.obj [("grant_types", .obj [("default", .arr [.str "authorization_code"]), ("value", .arr [])])]), .obj [], .obj [("grant_types", .arr [])], false⟩,
  ⟨223, .obj [("grant_types", .obj [("value", .arr []), ("essential", .bool true)])], .obj [("grant_types", .obj [("default", .arr [.str "authorization_code", .str "refresh_token"]), ("essential", .bool true)])], some (.obj [("grant_types", .obj [("default", .arr [.str "authorization_code", .str "refresh_token"]), ("value", .arr []), ("essential", .bool true)])]), .obj [("grant_types", .arr [.str "authorization_code"])], .obj [("grant_types", .arr [])], false⟩,
  ⟨224, .obj [("grant_types", .obj [("value", .arr []), ("essential", .bool true)])], .obj [("grant_types", .obj [("default", .arr [.str "authorization_code", .str "refresh_token"])])], some (.obj [("grant_types", .obj [("default", .arr [.str "authorization_code", .str "refresh_token"]), ("value", .arr []), ("essential", .bool true)])]), .obj [("grant_types", .arr [.str "authorization_code"])], .obj [("grant_types", .arr [])], false⟩,
  ⟨225, .obj [("grant_types", .obj [("value", .arr [])])], .obj [("grant_types", .obj [("default", .arr [.str "authorization_code", .str "refresh_token"]), ("essential", .bool true)])], some (.obj [("grant_types", .obj [("default", .arr [.str "authorization_code", .str "refresh_token"]), ("value", .arr []), ("essential", .bool true)])]), .obj [("grant_types", .arr [.str "authorization_code"])], .obj [("grant_types", .arr [])], false⟩,
  ⟨226, .obj [("grant_types", .obj [("value", .arr [])])], .obj [("grant_types", .obj [("default", .arr [.str "authorization_code", .str "refresh_token"])])], some (.obj [("grant_types", .obj [("default", .arr [.str "authorization_code", .str "refresh_token"]), ("value", .arr [])])]), .obj [("grant_types", .arr [.str "authorization_code"])], .obj [("grant_types", .arr [])], false⟩,
  ⟨227, .obj [("grant_types", .obj [("value", .arr []), ("essential", .bool true)])], .obj [("grant_types", .obj [("default", .arr [.str "authorization_code", .str "refresh_token"]), ("essential", .bool true)])], some (.obj [("grant_types", .obj [("default", .arr [.str "authorization_code", .str "refresh_token"]), ("value", .arr []), ("essential", .bool true)])]), .obj [("grant_types", .arr [.str "password"])], .obj [("grant_types", .arr [])], false⟩,
  ⟨228, .obj [("grant_types", .obj [("value", .arr []), ("essential", .bool true)])], .obj [("grant_types", .obj [("default", .arr [.str "authorization_code", .str "refresh_token"])])], some (.obj [("grant_types", .obj [("default", .arr [.str "authorization_code", .str "refresh_token"]), ("value", .arr []), ("essential", .bool true)])]), .obj [("grant_types", .arr [.str "password"])], .obj [("grant_types", .arr [])], false⟩,
  ⟨229, .obj [("grant_types", .obj [("value", .arr [])])], .obj [("grant_types", .obj [("default", .arr [.str "authorization_code", .str "refresh_token"]), ("essential", .bool true)])], some (.obj [("grant_types", .obj [("default", .arr [.str "authorization_code", .str "refresh_token"]), ("value", .arr []), ("essential", .bool true)])]), .obj [("grant_types", .arr [.str "password"])], .obj [("grant_types", .arr [])], false⟩,
  ⟨230, .obj [("grant_types", .obj [("value", .arr [])])], .obj [("grant_types", .obj [("default", .arr [.str "authorization_code", .str "refresh_token"])])], some (.obj [("grant_types", .obj [("default", .arr [.str "authorization_code", .str "refresh_token"]), ("value", .arr [])])]), .obj [("grant_types", .arr [.str "password"])], .obj [("grant_types", .arr [])], false⟩,
  ⟨231, .obj [("grant_types", .obj [("value", .arr []), ("essential", .bool true)])], .obj [("grant_types", .obj [("default", .arr [.str "authorization_code", .str "refresh_token"]), ("essential", .bool true)])], some (.obj [("grant_types", .obj [("default", .arr [.str "authorization_code", .str "refresh_token"]), ("value", .arr []), ("essential", .bool true)])]), .obj [("grant_types", .arr [.str "authorization_code", .str "refresh_token"])], .obj [("grant_types", .arr [])], false⟩,
  ⟨232, .obj [("grant_types", .obj [("value", .arr []), ("essential", .bool true)])], .obj [("grant_types", .obj [("default", .arr [.str "authorization_code", .str "refresh_token"])])], some (.obj [("grant_types", .obj [("default", .arr [.str "authorization_code", .str "refresh_token"]), ("value", .arr []), ("essential", .bool true)])]), .obj [("grant_types", .arr [.str "authorization_code", .str "refresh_token"])], .obj [("grant_types", .arr [])], false⟩,
  ⟨233, .obj [("grant_types", .obj [("value", .arr [])])], .obj [("grant_types", .obj [("default", .arr [.str "authorization_code", .str "refresh_token"]), ("essential", .bool true)])], some (.obj [("grant_types", .obj [("default", .arr [.str "authorization_code", .str "refresh_token"]), ("value", .arr []), ("essential", .bool true)])]), .obj [("grant_types", .arr [.str "authorization_code", .str "refresh_token"])], .obj [("grant_types", .arr [])], false⟩,
  ⟨234, .obj [("grant_types", .obj [("value", .arr [])])], .obj [("grant_types", .obj [("default", .arr [.str "authorization_code", .str "refresh_token"])])], some (.obj [("grant_types", .obj [("default", .arr [.str "authorization_code", .str "refresh_token"]), ("value", .arr [])])]), .obj [("grant_types", .arr [.str "authorization_code", .str "refresh_token"])], .obj [("grant_types", .arr [])], false⟩,
  ⟨235, .obj [("grant_types", .obj [("value", .arr []), ("essential", .bool true)])], .obj [("grant_types", .obj [("default", .arr [.str "authorization_code", .str "refresh_token"]), ("essential", .bool true)])], some (.obj [("grant_types", .obj [("default", .arr [.str "authorization_code", .str "refresh_token"]), ("value", .arr []), ("essential", .bool true)])]), .obj [("grant_types", .arr [.str "authorization_code", .str "password"])], .obj [("grant_types", .arr [])], false⟩,
  ⟨236, .obj [("grant_types", .obj [("value", .arr []), ("essential", .bool true)])], .obj [("grant_types", .obj [("default", .arr [.str "authorization_code", .str "refresh_token"])])], some (.obj [("grant_types", .obj [("default", .arr [.str "authorization_code", .str "refresh_token"]), ("value", .arr []), ("essential", .bool true)])]), .obj [("grant_types", .arr [.str "authorization_code", .str "password"])], .obj [("grant_types", .arr [])], false⟩,
  ⟨237, .obj [("grant_types", .obj [("value", .arr [])])], .obj [("grant_types", .obj [("default", .arr [.str "authorization_code", .str "refresh_token"]), ("essential", .bool true)])], some (.obj [("grant_types", .obj [("default", .arr [.str "authorization_code", .str "refresh_token"]), ("value", .arr []), ("essential", .bool true)])]), .obj [("grant_types", .arr [.str "authorization_code", .str "password"])], .obj [("grant_types", .arr [])], false⟩,
  ⟨238, .obj [("grant_types", .obj [("value", .arr [])])], .obj [("grant_types", .obj [("default", .arr [.str "authorization_code", .str "refresh_token"])])], some (.obj [("grant_types", .obj [("default", .arr [.str "authorization_code", .str "refresh_token"]), ("value", .arr [])])]), .obj [("grant_types", .arr [.str "authorization_code", .str "password"])], .obj [("grant_types", .arr [])], false⟩,
  ⟨239, .obj [("grant_types", .obj [("value", .arr []), ("essential", .bool true)])], .obj [("grant_types", .obj [("default", .arr [.str "authorization_code", .str "refresh_token"]), ("essential", .bool true)])], some (.obj [("grant_types", .obj [("default", .arr [.str "authorization_code", .str "refresh_token"]), ("value", .arr []), ("essential", .bool true)])]), .obj [("grant_types", .arr [])], .obj [("grant_types", .arr [])], false⟩,
  ⟨240, .obj [("grant_types", .obj [("value", .arr []), ("essential", .bool true)])], .obj [("grant_types", .obj [("default", .arr [.str "authorization_code", .str "refresh_token"])])], some (.obj [("grant_types", .obj [("default", .arr [.str "authorization_code", .str "refresh_token"]), ("value", .arr []), ("essential", .bool true)])]), .obj [("grant_types", .arr [])], .obj [("grant_types", .arr [])], false⟩,
  ⟨241, .obj [("grant_types", .obj [("value", .arr [])])], .obj [("grant_types", .obj [("default", .arr [.str "authorization_code", .str "refresh_token"]), ("essential", .bool true)])], some (.obj [("grant_types", .obj [("default", .arr [.str "authorization_code", .str "refresh_token"]), ("value", .arr []), ("essential", .bool true)])]), .obj [("grant_types", .arr [])], .obj [("grant_types", .arr [])], false⟩,
  ⟨242, .obj [("grant_types", .obj [("value", .arr [])])], .obj [("grant_types", .obj [("default", .arr [.str "authorization_code", .str "refresh_token"])])], some (.obj [("grant_types", .obj [("default", .arr [.str "authorization_code", .str "refresh_token"]), ("value", .arr [])])]), .obj [("grant_types", .arr [])], .obj [("grant_types", .arr [])], false⟩,
  ⟨243, .obj [("grant_types", .obj [("value", .arr []), ("essential", .bool true)])], .obj [("grant_types", .obj [("default", .arr [.str "authorization_code", .str "refresh_token"]), ("essential", .bool true)])], some (.obj [("grant_types", .obj [("default", .arr [.str "authorization_code", .str "refresh_token"]), ("value", .arr []), ("essential", .bool true)])]), .obj [], .obj [("grant_types", .arr [])], false⟩,
  ⟨244, .obj [("grant_types", .obj [("value", .arr []), ("essential", .bool true)])], .obj [("grant_types", .obj [("default", .arr [.str "authorization_code", .str "refresh_token"])])], some (.obj [("grant_types", .obj [("default", .arr [.str "authorization_code", .str "refresh_token"]), ("value", .arr []), ("essential", .bool true)])]), .obj [], .obj [("grant_types", .arr [])], false⟩,
  ⟨245, .obj [("grant_types", .obj [("value", .arr [])])], .obj [("grant_types", .obj [("default", .arr [.str "authorization_code", .str "refresh_token"]), ("essential", .bool true)])], some (.obj [("grant_types", .obj [("default", .arr [.str "authorization_code", .str "refresh_token"]), ("value", .arr []), ("essential", .bool true)])]), .obj [], .obj [("grant_types", .arr [])], false⟩,
  ⟨246, .obj [("grant_types", .obj [("value", .arr [])])], .obj [("grant_types", .obj [("default", .arr [.str "authorization_code", .str "refresh_token"])])], some (.obj [("grant_types", .obj [("default", .arr [.str "authorization_code", .str "refresh_token"]), ("value", .arr [])])]), .obj [], .obj [("grant_types", .arr [])], false⟩,
  ⟨247, .obj [("grant_types", .obj [("value", .arr [.str "authorization_code"]), ("essential", .bool true)])], .obj [("grant_types", .obj [("default", .arr [.str "authorization_code", .str "refresh_token"]), ("essential", .bool true)])], some (.obj [("grant_types", .obj [("default", .arr [.str "authorization_code", .str "refresh_token"]), ("value", .arr [.str "authorization_code"]), ("essential", .bool true)])]), .obj [("grant_types", .arr [.str "authorization_code"])], .obj [("grant_types", .arr [.str "authorization_code"])], false⟩,
  ⟨248, .obj [("grant_types", .obj [("value", .arr [.str "authorization_code"]), ("essential", .bool true)])], .obj [("grant_types", .obj [("default", .arr [.str "authorization_code", .str "refresh_token"])])], some (.obj [("grant_types", .obj [("default", .arr [.str "authorization_code", .str "refresh_token"]), ("value", .arr [.str "authorization_code"]), ("essential", .bool true)])]), .obj [("grant_types", .arr [.str "authorization_code"])], .obj [("grant_types", .arr [.str "authorization_code"])], false⟩,
  ⟨249, .obj [("grant_types", .obj [("value", .arr [.str "authorization_code"])])], .obj [("grant_types", .obj [("default", .arr [.str "authorization_code", .str "refresh_token"]), ("essential", .bool true)])], some (.obj [("grant_types", .obj [("default", .arr [.str "authorization_code", .str "refresh_token"]), ("value", .arr [.str "authorization_code"]), ("essential", .bool true)])]), .obj [("grant_types", .arr [.str "authorization_code"])], .obj [("grant_types", .arr [.str "authorization_code"])], false⟩,
  ⟨250, .obj [("grant_types", .obj [("value", .arr [.str "authorization_code"])])], .obj [("grant_types", .obj [("default", .arr [.str "authorization_code", .str "refresh_token"])])], some (.obj [("grant_types", .obj [("default", .arr [.str "authorization_code", .str "refresh_token"]), ("value", .arr [.str "authorization_code"])])]), .obj [("grant_types", .arr [.str "authorization_code"])], .obj [("grant_types", .arr [.str "authorization_code"])], false⟩,
  ⟨251, .obj [("grant_types", .obj [("value", .arr [.str "authorization_code"]), ("essential", .bool true)])], .obj [("grant_types", .obj [("default", .arr [.str "authorization_code", .str "refresh_token"]), ("essential", .bool true)])], some (.obj [("grant_types", .obj [("default", .arr [.str "authorization_code", .str "refresh_token"]), ("value", .arr [.str "authorization_code"]), ("essential", .bool true)])]), .obj [("grant_types", .arr [.str "password"])], .obj [("grant_types", .arr [.str "authorization_code"])], false⟩,
  ⟨252, .obj [("grant_types", .obj [("value", .arr [.str "authorization_code"]), ("essential", .bool true)])], .obj [("grant_types", .obj [("default", .arr [.str "authorization_code", .str "refresh_token"])])], some (.obj [("grant_types", .obj [("default", .arr [.str "authorization_code", .str "refresh_token"]), ("value", .arr [.str "authorization_code"]), ("essential", .bool true)])]), .obj [("grant_types", .arr [.str "password"])], .obj [("grant_types", .arr [.str "authorization_code"])], false⟩,
  ⟨253, .obj [("grant_types", .obj [("value", .arr [.str "authorization_code"])])], .obj [("grant_types", .obj [("default", .arr [.str "authorization_code", .str "refresh_token"]), ("essential", .bool true)])], some (.obj [("grant_types", .obj [("default", .arr [.str "authorization_code", .str "refresh_token"]), ("value", .arr [.str "authorization_code"]), ("essential", .bool true)])]), .obj [("grant_types", .arr [.str "password"])], .obj [("grant_types", .arr [.str "authorization_code"])], false⟩,
  ⟨254, .obj [("grant_types", .obj [("value", .arr [.str "authorization_code"])])], .obj [("grant_types", .obj [("default", .arr [.str "authorization_code", .str "refresh_token"])])], some (.obj [("grant_types", .obj [("default", .arr [.str "authorization_code", .str "refresh_token"]), ("value", .arr [.str "authorization_code"])])]), .obj [("grant_types", .arr [.str "password"])], .obj [("grant_types", .arr [.str "authorization_code"])], false⟩,
  ⟨255, .obj [("grant_types", .obj [("value", .arr [.str "authorization_code"]), ("essential", .bool true)])], .obj [("grant_types", .obj [("default", .arr [.str "authorization_code", .str "refresh_token"]), ("essential", .bool true)])], some (.obj [("grant_types", .obj [("default", .arr [.str "authorization_code", .str "refresh_token"]), ("value", .arr [.str "authorization_code"]), ("essential", .bool true)])]), .obj [("grant_types", .arr [.str "authorization_code", .str "refresh_token"])], .obj [("grant_types", .arr [.str "authorization_code"])], false⟩,
  ⟨256, .obj [("grant_types", .obj [("value", .arr [.str "authorization_code"]), ("essential", .bool true)])], .obj [("grant_types", .obj [("default", .arr [.str "authorization_code", .str "refresh_token"])])], some (.obj [("grant_types", .obj [("default", .arr [.str "authorization_code", .str "refresh_token"]), ("value", .arr [.str "authorization_code"]), ("essential", .bool true)])]), .obj [("grant_types", .arr [.str "authorization_code", .str "refresh_token"])], .obj [("grant_types", .arr [.str "authorization_code"])], false⟩,
  ⟨257, .obj [("grant_types", .obj [("value", .arr [.str "authorization_code"])])], .obj [("grant_types", .obj [("default", .arr [.str "authorization_code", .str "refresh_token"]), ("essential", .bool true)])], some (.obj [("grant_types", .obj [("default", .arr [.str "authorization_code", .str "refresh_token"]), ("value", .arr [.str "authorization_code"]), ("essential", .bool true)])]), .obj [("grant_types", .arr [.str "authorization_code", .str "refresh_token"])], .obj [("grant_types", .arr [.str "authorization_code"])], false⟩,
  ⟨258, .obj [("grant_types", .obj [("value", .arr [.str "authorization_code"])])], .obj [("grant_types", .obj [("default", .arr [.str "authorization_code", .str "refresh_token"])])], some (.obj [("grant_types", .obj [("default", .arr [.str "authorization_code", .str "refresh_token"]), ("value", .arr [.str "authorization_code"])])]), .obj [("grant_types", .arr [.str "authorization_code", .str "refresh_token"])], .obj [("grant_types", .arr [.str "authorization_code"])], false⟩,
  ⟨259, .obj [("grant_types", .obj [("value", .arr [.str "authorization_code"]), ("essential", .bool true)])], .obj [("grant_types", .obj [("default", .arr [.str "authorization_code", .str "refresh_token"]), ("essential", .bool true)])], some (.obj [("grant_types", .obj [("default", .arr [.str "authorization_code", .str "refresh_token"]), ("value", .arr [.str "authorization_code"]), ("essential", .bool true)])]), .obj [("grant_types", .arr [.str "authorization_code", .str "password"])], .obj [("grant_types", .arr [.str "authorization_code"])], false⟩,
  ⟨260, .obj [("grant_types", .obj [("value", .arr [.str "authorization_code"]), ("essential", .bool true)])], .obj [("grant_types", .obj [("default", .arr [.str "authorization_code", .str "refresh_token"])])], some (.obj [("grant_types", .obj [("default", .arr [.str "authorization_code", .str "refresh_token"]), ("value", .arr [.str "authorization_code"]), ("essential", .bool true)])]), .obj [("grant_types", .arr [.str "authorization_code", .str "password"])], .obj [("grant_types", .arr [.str "authorization_code"])], false⟩,
  ⟨261, .obj [("grant_types", .obj [("value", .arr [.str "authorization_code"])])], .obj [("grant_types", .obj [("default", .arr [.str "authorization_code", .str "refresh_token"]), ("essential", .bool true)])], some (.obj [("grant_types", .obj [("default", .arr [.str "authorization_code", .str "refresh_token"]), ("value", .arr [.str "authorization_code"]), ("essential", .bool true)])]), .obj [("grant_types", .arr [.str "authorization_code", .str "password"])], .obj [("grant_types", .arr [.str "authorization_code"])], false⟩,
  ⟨262, .obj [("grant_types", .obj [("value", .arr [.str "authorization_code"])])], .obj [("grant_types", .obj [("default", .arr [.str "authorization_code", .str "refresh_token"])])], some (.obj [("grant_types", .obj [("default", .arr [.str "authorization_code", .str "refresh_token"]), ("value", .arr [.str "authorization_code"])])]), .obj [("grant_types", .arr [.str "authorization_code", .str "password"])], .obj [("grant_types", .arr [.str "authorization_code"])], false⟩,
  ⟨263, .obj [("grant_types", .obj [("value", .arr [.str "authorization_code"]), ("essential", .bool true)])], .obj [("grant_types", .obj [("default", .arr [.str "authorization_code", .str "refresh_token"]), ("essential", .bool true)])], some (.obj [("grant_types", .obj [("default", .arr [.str "authorization_code", .str "refresh_token"]), ("value", .arr [.str "authorization_code"]), ("essential", .bool true)])]), .obj [("grant_types", .arr [])], .obj [("grant_types", .arr [.str "authorization_code"])], false⟩,
  ⟨264, .obj [("grant_types", .obj [("value", .arr [.str "authorization_code"]), ("essential", .bool true)])], .obj [("grant_types", .obj [("default", .arr [.str "authorization_code", .str "refresh_token"])])], some (.obj [("grant_types", .obj [("default", .arr [.str "authorization_code", .str "refresh_token"]), ("value", .arr [.str "authorization_code"]), ("essential", .bool true)])]), .obj [("grant_types", .arr [])], .obj [("grant_types", .arr [.str "authorization_code"])], false⟩,
  ⟨265, .obj [("grant_types", .obj [("value", .arr [.str "authorization_code"])])], .obj [("grant_types", .obj [("default", .arr [.str "authorization_code", .str "refresh_token"]), ("essential", .bool true)])], some (.obj [("grant_types", .obj [("default", .arr [.str "authorization_code", .str "refresh_token"]), ("value", .arr [.str "authorization_code"]), ("essential", .bool true)])]), .obj [("grant_types", .arr [])], .obj [("grant_types", .arr [.str "authorization_code"])], false⟩,
  ⟨266, .obj [("grant_types", .obj [("value", .arr [.str "authorization_code"])])], .obj [("grant_types", .obj [("default", .arr [.str "authorization_code", .str "refresh_token"])])], some (.obj [("grant_types", .obj [("default", .arr [.str "authorization_code", .str "refresh_token"]), ("value", .arr [.str "authorization_code"])])]), .obj [("grant_types", .arr [])], .obj [("grant_types", .arr [.str "authorization_code"])], false⟩,
  ⟨267, .obj [("grant_types", .obj [("value", .arr [.str "authorization_code"]), ("essential", .bool true)])], .obj [("grant_types", .obj [("default", .arr [.str "authorization_code", .str "refresh_token"]), ("essential", .bool true)])], some (.obj [("grant_types", .obj [("default", .arr [.str "authorization_code", .str "refresh_token"]), ("value", .arr [.str "authorization_code"]), ("essential", .bool true)])]), .obj [], .obj [("grant_types", .arr [.str "authorization_code"])], false⟩,
  ⟨268, .obj [("grant_types", .obj [("value", .arr [.str "authorization_code"]), ("essential", .bool true)])], .obj [("grant_types", .obj [("default", .arr [.str "authorization_code", .str "refresh_token"])])], some (.obj [("grant_types", .obj [("default", .arr [.str "authorization_code", .str "refresh_token"]), ("value", .arr [.str "authorization_code"]), ("essential", .bool true)])]), .obj [], .obj [("grant_types", .arr [.str "authorization_code"])], false⟩,
  ⟨269, .obj [("grant_types", .obj [("value", .arr [.str "authorization_code"])])], .obj [("grant_types", .obj [("default", .arr [.str "authorization_code", .str "refresh_token"]), ("essential", .bool true)])], some (.obj [("grant_types", .obj [("default", .arr [.str "authorization_code", .str "refresh_token"]), ("value", .arr [.str "authorization_code"]), ("essential", .bool true)])]), .obj [], .obj [("grant_types", .arr [.str "authorization_code"])], false⟩,
  ⟨270, .obj [("grant_types", .obj [("value", .arr [.str "authorization_code"])])], .obj [("grant_types", .obj [("default", .arr [.str "authorization_code", .str "refresh_token"])])], some (.obj [("grant_types", .obj [("default", .arr [.str "authorization_code", .str "refresh_token"]), ("value", .arr [.str "authorization_code"])])]), .obj [], .obj [("grant_types", .arr [.str "authorization_code"])], false⟩,
  ⟨271, .obj [("require_auth_time", .obj [("value", .bool true)])], .obj [("require_auth_time", .obj [("value", .bool true)])], some (.obj [("require_auth_time", .obj [("value", .bool true)])]), .obj [("require_auth_time", .bool true)], .obj [("require_auth_time", .bool true)], false⟩,
  ⟨272, .obj [("require_auth_time", .obj [("value", .bool true)])], .obj [("require_auth_time", .obj [("value", .bool false)])], none, .obj [("require_auth_time", .bool true)], .obj [], true⟩,
  ⟨273, .obj [("require_auth_time", .obj [("value", .bool false)])], .obj [("require_auth_time", .obj [("value", .bool true)])], none, .obj [("require_auth_time", .bool true)], .obj [], true⟩,
  ⟨274, .obj [("require_auth_time", .obj [("value", .bool false)])], .obj [("require_auth_time", .obj [("value", .bool false)])], some (.obj [("require_auth_time", .obj [("value", .bool false)])]), .obj [("require_auth_time", .bool true)], .obj [("require_auth_time", .bool false)], false⟩,
  ⟨275, .obj [("require_auth_time", .obj [("value", .bool true)])], .obj [("require_auth_time", .obj [("value", .bool true)])], some (.obj [("require_auth_time", .obj [("value", .bool true)])]), .obj [("require_auth_time", .bool false)], .obj [("require_auth_time", .bool true)], false⟩,
  ⟨276, .obj [("require_auth_time", .obj [("value", .bool true)])], .obj [("require_auth_time", .obj [("value", .bool false)])], none, .obj [("require_auth_time", .bool false)], .obj [], true⟩,
  ⟨277, .obj [("require_auth_time", .obj [("value", .bool false)])], .obj [("require_auth_time", .obj [("value", .bool true)])], none, .obj [("require_auth_time", .bool false)], .obj [], true⟩,
  ⟨278, .obj [("require_auth_time", .obj [("value", .bool false)])], .obj [("require_auth_time", .obj [("value", .bool false)])], some (.obj [("require_auth_time", .obj [("value", .bool false)])]), .obj [("require_auth_time", .bool false)], .obj [("require_auth_time", .bool false)], false⟩,
  ⟨279, .obj [("require_auth_time", .obj [("value", .bool true)])], .obj [("require_auth_time", .obj [("value", .bool true)])], some (.obj [("require_auth_time", .obj [("value", .bool true)])]), .obj [("require_auth_time", .bool true)], .obj [("require_auth_time", .bool true)], false⟩,
  ⟨280, .obj [("require_auth_time", .obj [("value", .bool true)])], .obj [("require_auth_time", .obj [("value", .bool false)])], none, .obj [("require_auth_time", .bool true)], .obj [], true⟩,
  ⟨281, .obj [("require_auth_time", .obj [("value", .bool false)])], .obj [("require_auth_time", .obj [("value", .bool true)])], none, .obj [("require_auth_time", .bool true)], .obj [], true⟩,
  ⟨282, .obj [("require_auth_time", .obj [("value", .bool false)])], .obj [("require_auth_time", .obj [("value", .bool false)])], some (.obj [("require_auth_time", .obj [("value", .bool false)])]), .obj [("require_auth_time", .bool true)], .obj [("require_auth_time", .bool false)], false⟩,
  ⟨283, .obj [("require_auth_time", .obj [("value", .bool true)])], .obj [("require_auth_time", .obj [("value", .bool true)])], some (.obj [("require_auth_time", .obj [("value", .bool true)])]), .obj [("require_auth_time", .bool false)], .obj [("require_auth_time", .bool true)], false⟩,
  ⟨284, .obj [("require_auth_time", .obj [("value", .bool true)])], .obj [("require_auth_time", .obj [("value", .bool false)])], none, .obj [("require_auth_time", .bool false)], .obj [], true⟩,
  ⟨285, .obj [("require_auth_time", .obj [("value", .bool false)])], .obj [("require_auth_time", .obj [("value", .bool true)])], none, .obj [("require_auth_time", .bool false)], .obj [], true⟩,
  ⟨286, .obj [("require_auth_time", .obj [("value", .bool false)])], .obj [("require_auth_time", .obj [("value", .bool false)])], some (.obj [("require_auth_time", .obj [("value", .bool false)])]), .obj [("require_auth_time", .bool false)], .obj [("require_auth_time", .bool false)], false⟩,
  ⟨287, .obj [("require_auth_time", .obj [("value", .bool true)])], .obj [("require_auth_time", .obj [("value", .bool true)])], some (.obj [("require_auth_time", .obj [("value", .bool true)])]), .obj [("require_auth_time", .bool true)], .obj [("require_auth_time", .bool true)], false⟩,
  ⟨288, .obj [("require_auth_time", .obj [("value", .bool true)])], .obj [("require_auth_time", .obj [("value", .bool false)])], none, .obj [("require_auth_time", .bool true)], .obj [], true⟩,
  ⟨289, .obj [("require_auth_time", .obj [("value", .bool false)])], .obj [("require_auth_time", .obj [("value", .bool true)])], none, .obj [("require_auth_time", .bool true)], .obj [], true⟩,
  ⟨290, .obj [("require_auth_time", .obj [("value", .bool false)])], .obj [("require_auth_time", .obj [("value", .bool false)])], some (.obj [("require_auth_time", .obj [("value", .bool false)])]), .obj [("require_auth_time", .bool true)], .obj [("require_auth_time", .bool false)], false⟩,
  ⟨291, .obj [("require_auth_time", .obj [("value", .bool true)])], .obj [("require_auth_time", .obj [("value", .bool true)])], some (.obj [("require_auth_time", .obj [("value", .bool true)])]), .obj [("require_auth_time", .bool false)], .obj [("require_auth_time", .bool true)], false⟩,
  ⟨292, .obj [("require_auth_time", .obj [("value", .bool true)])], .obj [("require_auth_time", .obj [("value", .bool false)])], none, .obj [("require_auth_time", .bool false)], .obj [], true⟩,
  ⟨293, .obj [("require_auth_time", .obj [("value", .bool false)])], .obj [("require_auth_time", .obj [("value", .bool true)])], none, .obj [("require_auth_time", .bool false)], .obj [], true⟩,
  ⟨294, .obj [("require_auth_time", .obj [("value", .bool false)])], .obj [("require_auth_time", .obj [("value", .bool false)])], some (.obj [("require_auth_time", .obj [("value", .bool false)])]), .obj [("require_auth_time", .bool false)], .obj [("require_auth_time", .bool false)], false⟩,
  ⟨295, .obj [("id_token_signed_response_alg", .obj [("value", .str "RS256"), ("essential", .bool true)])], .obj [("id_token_signed_response_alg", .obj [("one_of", .arr [.str "RS256", .str "ES256"]), ("essential", .bool true)])], some (.obj [("id_token_signed_response_alg", .obj [("one_of", .arr [.str "RS256", .str "ES256"]), ("value", .str "RS256"), ("essential", .bool true)])]), .obj [("id_token_signed_response_alg", .str "RS256")], .obj [("id_token_signed_response_alg", .str "RS256")], false⟩,
  ⟨296, .obj [("id_token_signed_response_alg", .obj [("value", .str "RS256"), ("essential", .bool true)])], .obj [("id_token_signed_response_alg", .obj [("one_of", .arr [.str "RS256", .str "ES256"])])], some (.obj [("id_token_signed_response_alg", .obj [("one_of", .arr [.str "RS256", .str "ES256"]), ("value", .str "RS256"), ("essential", .bool true)])]), .obj [("id_token_signed_response_alg", .str "RS256")], .obj [("id_token_signed_response_alg", .str "RS256")], false⟩,
  ⟨297, .obj [("id_token_signed_response_alg", .obj [("value", .str "RS256")])], .obj [("id_token_signed_response_alg", .obj [("one_of", .arr [.str "RS256", .str "ES256"]), ("essential", .bool true)])], some (.obj [("id_token_signed_response_alg", .obj [("one_of", .arr [.str "RS256", .str "ES256"]), ("value", .str "RS256"), ("essential", .bool true)])]), .obj [("id_token_signed_response_alg", .str "RS256")], .obj [("id_token_signed_response_alg", .str "RS256")], false⟩,
  ⟨298, .obj [("id_token_signed_response_alg", .obj [("value", .str "RS256")])], .obj [("id_token_signed_response_alg", .obj [("one_of", .arr [.str "RS256", .str "ES256"])])], some (.obj [("id_token_signed_response_alg", .obj [("one_of", .arr [.str "RS256", .str "ES256"]), ("value", .str "RS256")])]), .obj [("id_token_signed_response_alg", .str "RS256")], .obj [("id_token_signed_response_alg", .str "RS256")], false⟩,
  ⟨299, .obj [("id_token_signed_response_alg", .obj [("value", .str "RS256"), ("essential", .bool true)])], .obj [("id_token_signed_response_alg", .obj [("one_of", .arr [.str "RS256", .str "ES256"]), ("essential", .bool true)])], some (.obj [("id_token_signed_response_alg", .obj [("one_of", .arr [.str "RS256", .str "ES256"]), ("value", .str "RS256"), ("essential", .bool true)])]), .obj [("id_token_signed_response_alg", .str "EdDSA")], .obj [("id_token_signed_response_alg", .str "RS256")], false⟩,
  ⟨300, .obj [("id_token_signed_response_alg", .obj [("value", .str "RS256"), ("essential", .bool true)])], .obj [("id_token_signed_response_alg", .obj [("one_of", .arr [.str "RS256", .str "ES256"])])], some (.obj [("id_token_signed_response_alg", .obj [("one_of", .arr [.str "RS256", .str "ES256"]), ("value", .str "RS256"), ("essential", .bool true)])]), .obj [("id_token_signed_response_alg", .str "EdDSA")], .obj [("id_token_signed_response_alg", .str "RS256")], false⟩,
  ⟨301, .obj [("id_token_signed_response_alg", .obj [("value", .str "RS256")])], .obj [("id_token_signed_response_alg", .obj [("one_of", .arr [.str "RS256", .str "ES256"]), ("essential", .bool true)])], some (.obj [("id_token_signed_response_alg", .obj [("one_of", .arr [.str "RS256", .str "ES256"]), ("value", .str "RS256"), ("essential", .bool true)])]), .obj [("id_token_signed_response_alg", .str "EdDSA")], .obj [("id_token_signed_response_alg", .str "RS256")], false⟩,
  ⟨302, .obj [("id_token_signed_response_alg", .obj [("value", .str "RS256")])], .obj [("id_token_signed_response_alg", .obj [("one_of", .arr [.str "RS256", .str "ES256"])])], some (.obj [("id_token_signed_response_alg", .obj [("one_of", .arr [.str "RS256", .str "ES256"]), ("value", .str "RS256")])]), .obj [("id_token_signed_response_alg", .str "EdDSA")], .obj [("id_token_signed_response_alg", .str "RS256")], false⟩,
  ⟨303, .obj [("id_token_signed_response_alg", .obj [("value", .str "RS256"), ("essential", .bool true)])], .obj [("id_token_signed_response_alg", .obj [("one_of", .arr [.str "RS256", .str "ES256"]), ("essential", .bool true)])], some (.obj [("id_token_signed_response_alg", .obj [("one_of", .arr [.str "RS256", .str "ES256"]), ("value", .str "RS256"), ("essential", .bool true)])]), .obj [], .obj [("id_token_signed_response_alg", .str "RS256")], false⟩,
  ⟨304, .obj [("id_token_signed_response_alg", .obj [("value", .str "RS256"), ("essential", .bool true)])], .obj [("id_token_signed_response_alg", .obj [("one_of", .arr [.str "RS256", .str "ES256"])])], some (.obj [("id_token_signed_response_alg", .obj [("one_of", .arr [.str "RS256", .str "ES256"]), ("value", .str "RS256"), ("essential", .bool true)])]), .obj [], .obj [("id_token_signed_response_alg", .str "RS256")], false⟩,
  ⟨305, .obj [("id_token_signed_response_alg", .obj [("value", .str "RS256")])], .obj [("id_token_signed_response_alg", .obj [("one_of", .arr [.str "RS256", .str "ES256"]), ("essential", .bool true)])], some (.obj [("id_token_signed_response_alg", .obj [("one_of", .arr [.str "RS256", .str "ES256"]), ("value", .str "RS256"), ("essential", .bool true)])]), .obj [], .obj [("id_token_signed_response_alg", .str "RS256")], false⟩,
  ⟨306, .obj [("id_token_signed_response_alg", .obj [("value", .str "RS256")])], .obj [("id_token_signed_response_alg", .obj [("one_of", .arr [.str "RS256", .str "ES256"])])], some (.obj [("id_token_signed_response_alg", .obj [("one_of", .arr [.str "RS256", .str "ES256"]), ("value", .str "RS256")])]), .obj [], .obj [("id_token_signed_response_alg", .str "RS256")], false⟩,
  ⟨307, .obj [("logo_uri", .obj [("value", .null)])], .obj [("logo_uri", .obj [("one_of", .arr [.str "https://example.com/logo.png", .str "https://example.org/logo.png"])])], none, .obj [("logo_uri", .str "https://example.com/logo.png")], .obj [], true⟩,
  ⟨308, .obj [("logo_uri", .obj [("value", .null)])], .obj [("logo_uri", .obj [("one_of", .arr [.str "https://example.com/logo.png", .str "https://example.org/logo.png"])])], none, .obj [("logo_uri", .str "https://images.example.com/logo.jpg")], .obj [], true⟩,
  ⟨309, .obj [("logo_uri", .obj [("value", .null)])], .obj [("logo_uri", .obj [("one_of", .arr [.str "https://example.com/logo.png", .str "https://example.org/logo.png"])])], none, .obj [], .obj [], true⟩,
  ⟨310, .obj [("grant_types", .obj [("value", .arr []), ("essential", .bool true)])], .obj [("grant_types", .obj [("subset_of", .arr [.str "authorization_code"]), ("essential", .bool true)])], some (.obj [("grant_types", .obj [("subset_of", .arr [.str "authorization_code"]), ("value", .arr []), ("essential", .bool true)])]), .obj [("grant_types", .arr [.str "authorization_code"])], .obj [("grant_types", .arr [])], false⟩,
  ⟨311, .obj [("grant_types", .obj [("value", .arr []), ("essential", .bool true)])], .obj [("grant_types", .obj [("subset_of", .arr [.str "authorization_code"])])], some (.obj [("grant_types", .obj [("subset_of", .arr [.str "authorization_code"]), ("value", .arr []), ("essential", .bool true)])]), .obj [("grant_types", .arr [.str "authorization_code"])], .obj [("grant_types", .arr [])], false⟩,
  ⟨312, .obj [("grant_types", .obj [("value", .arr [])])], .obj [("grant_types", .obj [("subset_of", .arr [.str "authorization_code"]), ("essential", .bool true)])], some (.obj [("grant_types", .obj [("subset_of", .arr [.str "authorization_code"]), ("value", .arr []), ("essential", .bool true)])]), .obj [("grant_types", .arr [.str "authorization_code"])], .obj [("grant_types", .arr [])], false⟩,
  ⟨313, .obj [("grant_types", .obj [("value", .arr [])])], .obj [("grant_types", .obj [("subset_of", .arr [.str "authorization_code"])])], some (.obj [("grant_types", .obj [("subset_of", .arr [.str "authorization_code"]), ("value", .arr [])])]), .obj [("grant_types", .arr [.str "authorization_code"])], .obj [("grant_types", .arr [])], false⟩,
  ⟨314, .obj [("grant_types", .obj [("value", .arr []), ("essential", .bool true)])], .obj [("grant_types", .obj [("subset_of", .arr [.str "authorization_code"]), ("essential", .bool true)])], some (.obj [("grant_types", .obj [("subset_of", .arr [.str "authorization_code"]), ("value", .arr []), ("essential", .bool true)])]), .obj [("grant_types", .arr [.str "password"])], .obj [("grant_types", .arr [])], false⟩,
  ⟨315, .obj [("grant_types", .obj [("value", .arr []), ("essential", .bool true)])], .obj [("grant_types", .obj [("subset_of", .arr [.str "authorization_code"])])], some (.obj [("grant_types", .obj [("subset_of", .arr [.str "authorization_code"]), ("value", .arr []), ("essential", .bool true)])]), .obj [("grant_types", .arr [.str "password"])], .obj [("grant_types", .arr [])], false⟩,
  ⟨316, .obj [("grant_types", .obj [("value", .arr [])])], .obj [("grant_types", .obj [("subset_of", .arr [.str "authorization_code"]), ("essential", .bool true)])], some (.obj [("grant_types", .obj [("subset_of", .arr [.str "authorization_code"]), ("value", .arr []), ("essential", .bool true)])]), .obj [("grant_types", .arr [.str "password"])], .obj [("grant_types", .arr [])], false⟩,
  ⟨317, .obj [("grant_types", .obj [("value", .arr [])])], .obj [("grant_types", .obj [("subset_of", .arr [.str "authorization_code"])])], some (.obj [("grant_types", .obj [("subset_of", .arr [.str "authorization_code"]), ("value", .arr [])])]), .obj [("grant_types", .arr [.str "password"])], .obj [("grant_types", .arr [])], false⟩,
  ⟨318, .obj [("grant_types", .obj [("value", .arr []), ("essential", .bool true)])], .obj [("grant_types", .obj [("subset_of", .arr [.str "authorization_code"]), ("essential", .bool true)])], some (.obj [("grant_types", .obj [("subset_of", .arr [.str "authorization_code"]), ("value", .arr []), ("essential", .bool true)])]), .obj [("grant_types", .arr [.str "authorization_code", .str "refresh_token"])], .obj [("grant_types", .arr [])], false⟩,
  ⟨319, .obj [("grant_types", .obj [("value", .arr []), ("essential", .bool true)])], .obj [("grant_types", .obj [("subset_of", .arr [.str "authorization_code"])])], some (.obj [("grant_types", .obj [("subset_of", .arr [.str "authorization_code"]), ("value", .arr []), ("essential", .bool true)])]), .obj [("grant_types", .arr [.str "authorization_code", .str "refresh_token"])], .obj [("grant_types", .arr [])], false⟩,
  ⟨320, .obj [("grant_types", .obj [("value", .arr [])])], .obj [("grant_types", .obj [("subset_of", .arr [.str "authorization_code"]), ("essential", .bool true)])], some (.obj [("grant_types", .obj [("subset_of", .arr [.str "authorization_code"]), ("value", .arr []), ("essential", .bool true)])]), .obj [("grant_types", .arr [.str "authorization_code", .str "refresh_token"])], .obj [("grant_types", .arr [])], false⟩,
  ⟨321, .obj [("grant_types", .obj [("value", .arr [])])], .obj [("grant_types", .obj [("subset_of", .arr [.str "authorization_code"])])], some (.obj [("grant_types", .obj [("subset_of", .arr [.str "authorization_code"]), ("value", .arr [])])]), .obj [("grant_types", .arr [.str "authorization_code", .str "refresh_token"])], .obj [("grant_types", .arr [])], false⟩,
  ⟨322, .obj [("grant_types", .obj [("value", .arr []), ("essential", .bool true)])], .obj [("grant_types", .obj [("subset_of", .arr [.str "authorization_code"]), ("essential", .bool true)])], some (.obj [("grant_types", .obj [("subset_of", .arr [.str "authorization_code"]), ("value", .arr []), ("essential", .bool true)])]), .obj [("grant_types", .arr [.str "authorization_code", .str "password"])], .obj [("grant_types", .arr [])], false⟩,
  ⟨323, .obj [("grant_types", .obj [("value", .arr []), ("essential", .bool true)])], .obj [("grant_types", .obj [("subset_of", .arr [.str "authorization_code"])])], some (.obj [("grant_types", .obj [("subset_of", .arr [.str "authorization_code"]), ("value", .arr []), ("essential", .bool true)])]), .obj [("grant_types", .arr [.str "authorization_code", .str "password"])], .obj [("grant_types", .arr [])], false⟩,
  ⟨324, .obj [("grant_types", .obj [("value", .arr [])])], .obj [("grant_types", .obj [("subset_of", .arr [.str "authorization_code"]), ("essential", .bool true)])], some (.obj [("grant_types", .obj [("subset_of", .arr [.str "authorization_code"]), ("value", .arr []), ("essential", .bool true)])]), .obj [("grant_types", .arr [.str "authorization_code", .str "password"])], .obj [("grant_types", .arr [])], false⟩,
  ⟨325, .obj [("grant_types", .obj [("value", .arr [])])], .obj [("grant_types", .obj [("subset_of", .arr [.str "authorization_code"])])], some (.obj [("grant_types", .obj [("subset_of", .arr [.str "authorization_code"]), ("value", .arr [])])]), .obj [("grant_types", .arr [.str "authorization_code", .str "password"])], .obj [("grant_types", .arr [])], false⟩,
  ⟨326, .obj [("grant_types", .obj [("value", .arr []), ("essential", .bool true)])], .obj [("grant_types", .obj [("subset_of", .arr [.str "authorization_code"]), ("essential", .bool true)])], some (.obj [("grant_types", .obj [("subset_of", .arr [.str "authorization_code"]), ("value", .arr []), ("essential", .bool true)])]), .obj [("grant_types", .arr [])], .obj [("grant_types", .arr [])], false⟩,
  ⟨327, .obj [("grant_types", .obj [("value", .arr []), ("essential", .bool true)])], .obj [("grant_types", .obj [("subset_of", .arr [.str "authorization_code"])])], some (.obj [("grant_types", .obj [("subset_of", .arr [.str "authorization_code"]), ("value", .arr []), ("essential", .bool true)])]), .obj [("grant_types", .arr [])], .obj [("grant_types", .arr [])], false⟩,
  ⟨328, .obj [("grant_types", .obj [("value", .arr [])])], .obj [("grant_types", .obj [("subset_of", .arr [.str "authorization_code"]), ("essential", .bool true)])], some (.obj [("grant_types", .obj [("subset_of", .arr [.str "authorization_code"]), ("value", .arr []), ("essential", .bool true)])]), .obj [("grant_types", .arr [])], .obj [("grant_types", .arr [])], false⟩,
  ⟨329, .obj [("grant_types", .obj [("value", .arr [])])], .obj [("grant_types", .obj [("subset_of", .arr [.str "authorization_code"])])], some (.obj [("grant_types", .obj [("subset_of", .arr [.str "authorization_code"]), ("value", .arr [])])]), .obj [("grant_types", .arr [])], .obj [("grant_types", .arr [])], false⟩,
  ⟨330, .obj [("grant_types", .obj [("value", .arr []), ("essential", .bool true)])], .obj [("grant_types", .obj [("subset_of", .arr [.str "authorization_code"]), ("essential", .bool true)])], some (.obj [("grant_types", .obj [("subset_of", .arr [.str "authorization_code"]), ("value", .arr []), ("essential", .bool true)])]), .obj [], .obj [("grant_types", .arr [])], false⟩,
  ⟨331, .obj [("grant_types", .obj [("value", .arr []), ("essential", .bool true)])], .obj [("grant_types", .obj [("subset_of", .arr [.str "authorization_code"])])], some (.obj [("grant_types", .obj [("subset_of", .arr [.str "authorization_code"]), ("value", .arr []), ("essential", .bool true)])]), .obj [], .obj [("grant_types", .arr [])], false⟩,
  ⟨332, .obj [("grant_types", .obj [("value", .arr [])])], .obj [("grant_types", .obj [("subset_of", .arr [.str "authorization_code"]), ("essential", .bool true)])], some (.obj [("grant_types", .obj [("subset_of", .arr [.str "authorization_code"]), ("value", .arr []), ("essential", .bool true)])]), .obj [], .obj [("grant_types", .arr [])], false⟩,
  ⟨333, .obj [("grant_types", .obj [("value", .arr [])])], .obj [("grant_types", .obj [("subset_of", .arr [.str "authorization_code"])])], some (.obj [("grant_types", .obj [("subset_of", .arr [.str "authorization_code"]), ("value", .arr [])])]), .obj [], .obj [("grant_types", .arr [])], false⟩,
  ⟨334, .obj [("grant_types", .obj [("value", .arr []), ("essential", .bool true)])], .obj [("grant_types", .obj [("subset_of", .arr [.str "authorization_code", .str "refresh_token"]), ("essential", .bool true)])], some (.obj [("grant_types", .obj [("subset_of", .arr [.str "authorization_code", .str "refresh_token"]), ("value", .arr []), ("essential", .bool true)])]), .obj [("grant_types", .arr [.str "authorization_code"])], .obj [("grant_types", .arr [])], false⟩,
  ⟨335, .obj [("grant_types", .obj [("value", .arr []), ("essential", .bool true)])], .obj [("grant_types", .obj [("subset_of", .arr [.str "authorization_code", .str "refresh_token"])])], some (.obj [("grant_types", .obj [("subset_of", .arr [.str "authorization_code", .str "refresh_token"]), ("value", .arr []), ("essential", .bool true)])]), .obj [("grant_types", .arr [.str "authorization_code"])], .obj [("grant_types", .arr [])], false⟩,
  ⟨336, .obj [("grant_types", .obj [("value", .arr [])])], .obj [("grant_types", .obj [("subset_of", .arr [.str "authorization_code", .str "refresh_token"]), ("essential", .bool true)])], some (.obj [("grant_types", .obj [("subset_of", .arr [.str "authorization_code", .str "refresh_token"]), ("value", .arr []), ("essential", .bool true)])]), .obj [("grant_types", .arr [.str "authorization_code"])], .obj [("grant_types", .arr [])], false⟩,
  ⟨337, .obj [("grant_types", .obj [("value", .arr [])])], .obj [("grant_types", .obj [("subset_of", .arr [.str "authorization_code", .str "refresh_token"])])], some (.obj [("grant_types", .obj [("subset_of", .arr [.str "authorization_code", .str "refresh_token"]), ("value", .arr [])])]), .obj [("grant_types", .arr [.str "authorization_code"])], .obj [("grant_types", .arr [])], false⟩,
  ⟨338, .obj [("grant_types", .obj [("value", .arr []), ("essential", .bool true)])], .obj [("grant_types", .obj [("subset_of", .arr [.str "authorization_code", .str "refresh_token"]), ("essential", .bool true)])], some (.obj [("grant_types", .obj [("subset_of", .arr [.str "authorization_code", .str "refresh_token"]), ("value", .arr []), ("essential", .bool true)])]), .obj [("grant_types", .arr [.str "password"])], .obj [("grant_types", .arr [])], false⟩,
  ⟨339, .obj [("grant_types", .obj [("value", .arr []), ("essential", .bool true)])], .obj [("grant_types", .obj [("subset_of", .arr [.str "authorization_code", .str "refresh_token"])])], some (.obj [("grant_types", .obj [("subset_of", .arr [.str "authorization_code", .str "refresh_token"]), ("value", .arr []), ("essential", .bool true)])]), .obj [("grant_types", .arr [.str "password"])], .obj [("grant_types", .arr [])], false⟩,
  ⟨340, .obj [("grant_types", .obj [("value", .arr [])])], .obj [("grant_types", .obj [("subset_of", .arr [.str "authorization_code", .str "refresh_token"]), ("essential", .bool true)])], some (.obj [("grant_types", .obj [("subset_of", .arr [.str "authorization_code", .str "refresh_token"]), ("value", .arr []), ("essential", .bool true)])]), .obj [("grant_types", .arr [.str "password"])], .obj [("grant_types", .arr [])], false⟩,
  ⟨341, .obj [("grant_types", .obj [("value", .arr [])])], .obj [("grant_types", .obj [("subset_of", .arr [.str "authorization_code", .str "refresh_token"])])], some (.obj [("grant_types", .obj [("subset_of", .arr [.str "authorization_code", .str "refresh_token"]), ("value", .arr [])])]), .obj [("grant_types", .arr [.str "password"])], .obj [("grant_types", .arr [])], false⟩,
  ⟨342, .obj [("grant_types", .obj [("value", .arr []), ("essential", .bool true)])], .obj [("grant_types", .obj [("subset_of", .arr [.str "authorization_code", .str "refresh_token"]), ("essential", .bool true)])], some (.obj [("grant_types", .obj [("subset_of", .arr [.str "authorization_code", .str "refresh_token"]), ("value", .arr []), ("essential", .bool true)])]), .obj [("grant_types", .arr [.str "authorization_code", .str "refresh_token"])], .obj [("grant_types", .arr [])], false⟩,
  ⟨343, .obj [("grant_types", .obj [("value", .arr []), ("essential", .bool true)])], .obj [("grant_types", .obj [("subset_of", .arr [.str "authorization_code", .str "refresh_token"])])], some (.obj [("grant_types", .obj [("subset_of", .arr [.str "authorization_code", .str "refresh_token"]), ("value", .arr []), ("essential", .bool true)])]), .obj [("grant_types", .arr [.str "authorization_code", .str "refresh_token"])], .obj [("grant_types", .arr [])], false⟩,
  ⟨344, .obj [("grant_types", .obj [("value", .arr [])])], .obj [("grant_types", .obj [("subset_of", .arr [.str "authorization_code", .str "refresh_token"]), ("essential", .bool true)])], some (.obj [("grant_types", .obj [("subset_of", .arr [.str "authorization_code", .str "refresh_token"]), ("value", .arr []), ("essential", .bool true)])]), .obj [("grant_types", .arr [.str "authorization_code", .str "refresh_token"])], .obj [("grant_types", .arr [])], false⟩,
  ⟨345, .obj [("grant_types", .obj [("value", .arr [])])], .obj [("grant_types", .obj [("subset_of", .arr [.str "authorization_code", .str "refresh_token"])])], some (.obj [("grant_types", .obj [("subset_of", .arr [.str "authorization_code", .str "refresh_token"]), ("value", .arr [])])]), .obj [("grant_types", .arr [.str "authorization_code", .str "refresh_token"])], .obj [("grant_types", .arr [])], false⟩,
  ⟨346, .obj [("grant_types", .obj [("value", .arr []), ("essential", .bool true)])], .obj [("grant_types", .obj [("subset_of", .arr [.str "authorization_code", .str "refresh_token"]), ("essential", .bool true)])], some (.obj [("grant_types", .obj [("subset_of", .arr [.str "authorization_code", .str "refresh_token"]), ("value", .arr []), ("essential", .bool true)])]), .obj [("grant_types", .arr [.str "authorization_code", .str "password"])], .obj [("grant_types", .arr [])], false⟩,
  ⟨347, .obj [("grant_types", .obj [("value", .arr []), ("essential", .bool true)])], .obj [("grant_types", .obj [("subset_of", .arr [.str "authorization_code", .str "refresh_token"])])], some (.obj [("grant_types", .obj [("subset_of", .arr [.str "authorization_code", .str "refresh_token"]), ("value", .arr []), ("essential", .bool true)])]), .obj [("grant_types", .arr [.str "authorization_code", .str "password"])], .obj [("grant_types", .arr [])], false⟩,
  ⟨348, .obj [("grant_types", .obj [("value", .arr [])])], .obj [("grant_types", .obj [("subset_of", .arr [.str "authorization_code", .str "refresh_token"]), ("essential", .bool true)])], some (.obj [("grant_types", .obj [("subset_of", .arr [.str "authorization_code", .str "refresh_token"]), ("value", .arr []), ("essential", .bool true)])]), .obj [("grant_types", .arr [.str "authorization_code", .str "password"])], .obj [("grant_types", .arr [])], false⟩,
  ⟨349, .obj [("grant_types", .obj [("value", .arr [])])], .obj [("grant_types", .obj [("subset_of", .arr [.str "authorization_code", .str "refresh_token"])])], some (.obj [("grant_types", .obj [("subset_of", .arr [.str "authorization_code", .str "refresh_token"]), ("value", .arr [])])]), .obj [("grant_types", .arr [.str "authorization_code", .str "password"])], .obj [("grant_types", .arr [])], false⟩,
  ⟨350, .obj [("grant_types", .obj [("value", .arr []), ("essential", .bool true)])], .obj [("grant_types", .obj [("subset_of", .arr [.str "authorization_code", .str "refresh_token"]), ("essential", .bool true)])], some (.obj [("grant_types", .obj [("subset_of", .arr [.str "authorization_code", .str "refresh_token"]), ("value", .arr []), ("essential", .bool true)])]), .obj [("grant_types", .arr [])], .obj [("grant_types", .arr [])], false⟩,
  ⟨351, .obj [("grant_types", .obj [("value", .arr []), ("essential", .bool true)])], .obj [("grant_types", .obj [("subset_of", .arr [.str "authorization_code", .str "refresh_token"])])], some (.obj [("grant_types", .obj [("subset_of", .arr [.str "authorization_code", .str "refresh_token"]), ("value", .arr []), ("essential", .bool true)])]), .obj [("grant_types", .arr [])], .obj [("grant_types", .arr [])], false⟩,
  ⟨352, .obj [("grant_types", .obj [("value", .arr [])])], .obj [("grant_types", .obj [("subset_of", .arr [.str "authorization_code", .str "refresh_token"]), ("essential", .bool true)])], some (.obj [("grant_types", .obj [("subset_of", .arr [.str "authorization_code", .str "refresh_token"]), ("value", .arr []), ("essential", .bool true)])]), .obj [("grant_types", .arr [])], .obj [("grant_types", .arr [])], false⟩,
  ⟨353, .obj [("grant_types", .obj [("value", .arr [])])], .obj [("grant_types", .obj [("subset_of", .arr [.str "authorization_code", .str "refresh_token"])])], some (.obj [("grant_types", .obj [("subset_of", .arr [.str "authorization_code", .str "refresh_token"]), ("value", .arr [])])]), .obj [("grant_types", .arr [])], .obj [("grant_types", .arr [])], false⟩,
  ⟨354, .obj [("grant_types", .obj [("value", .arr []), ("essential", .bool true)])], .obj [("grant_types", .obj [("subset_of", .arr [.str "authorization_code", .str "refresh_token"]), ("essential", .bool true)])], some (.obj [("grant_types", .obj [("subset_of", .arr [.str "authorization_code", .str "refresh_token"]), ("value", .arr []), ("essential", .bool true)])]), .obj [], .obj [("grant_types", .arr [])], false⟩,
  ⟨355, .obj [("grant_types", .obj [("value", .arr []), ("essential", .bool true)])], .obj [("grant_types", .obj [("subset_of", .arr [.str "authorization_code", .str "refresh_token"])])], some (.obj [("grant_types", .obj [("subset_of", .arr [.str "authorization_code", .str "refresh_token"]), ("value", .arr []), ("essential", .bool true)])]), .obj [], .obj [("grant_types", .arr [])], false⟩,
  ⟨356, .obj [("grant_types", .obj [("value", .arr [])])], .obj [("grant_types", .obj [("subset_of", .arr [.str "authorization_code", .str "refresh_token"]), ("essential", .bool true)])], some (.obj [("grant_types", .obj [("subset_of", .arr [.str "authorization_code", .str "refresh_token"]), ("value", .arr []), ("essential", .bool true)])]), .obj [], .obj [("grant_types", .arr [])], false⟩,
  ⟨357, .obj [("grant_types", .obj [("value", .arr [])])], .obj [("grant_types", .obj [("subset_of", .arr [.str "authorization_code", .str "refresh_token"])])], some (.obj [("grant_types", .obj [("subset_of", .arr [.str "authorization_code", .str "refresh_token"]), ("value", .arr [])])]), .obj [], .obj [("grant_types", .arr [])], false⟩,
  ⟨358, .obj [("grant_types", .obj [("value", .arr [.str "authorization_code"]), ("essential", .bool true)])], .obj [("grant_types", .obj [("subset_of", .arr [.str "authorization_code", .str "refresh_token"]), ("essential", .bool true)])], some (.obj [("grant_types", .obj [("subset_of", .arr [.str "authorization_code", .str "refresh_token"]), ("value", .arr [.str "authorization_code"]), ("essential", .bool true)])]), .obj [("grant_types", .arr [.str "authorization_code"])], .obj [("grant_types", .arr [.str "authorization_code"])], false⟩,
  ⟨359, .obj [("grant_types", .obj [("value", .arr [.str "authorization_code"]), ("essential", .bool true)])], .obj [("grant_types", .obj [("subset_of", .arr [.str "authorization_code", .str "refresh_token"])])], some (.obj [("grant_types", .obj [("subset_of", .arr [.str "authorization_code", .str "refresh_token"]), ("value", .arr [.str "authorization_code"]), ("essential", .bool true)])]), .obj [("grant_types", .arr [.str "authorization_code"])], .obj [("grant_types", .arr [.str "authorization_code"])], false⟩,
  ⟨360, .obj [("grant_types", .obj [("value", .arr [.str "authorization_code"])])], .obj [("grant_types", .obj [("subset_of", .arr [.str "authorization_code", .str "refresh_token"]), ("essential", .bool true)])], some (.obj [("grant_types", .obj [("subset_of", .arr [.str "authorization_code", .str "refresh_token"]), ("value", .arr [.str "authorization_code"]), ("essential", .bool true)])]), .obj [("grant_types", .arr [.str "authorization_code"])], .obj [("grant_types", .arr [.str "authorization_code"])], false⟩,
  ⟨361, .obj [("grant_types", .obj [("value", .arr [.str "authorization_code"])])], .obj [("grant_types", .obj [("subset_of", .arr [.str "authorization_code", .str "refresh_token"])])], some (.obj [("grant_types", .obj [("subset_of", .arr [.str "authorization_code", .str "refresh_token"]), ("value", .arr [.str "authorization_code"])])]), .obj [("grant_types", .arr [.str "authorization_code"])], .obj [("grant_types", .arr [.str "authorization_code"])], false⟩,
  ⟨362, .obj [("grant_types", .obj [("value", .arr [.str "authorization_code"]), ("essential", .bool true)])], .obj [("grant_types", .obj [("subset_of", .arr [.str "authorization_code", .str "refresh_token"]), ("essential", .bool true)])], some (.obj [("grant_types", .obj [("subset_of", .arr [.str "authorization_code", .str "refresh_token"]), ("value", .arr [.str "authorization_code"]), ("essential", .bool true)])]), .obj [("grant_types", .arr [.str "password"])], .obj [("grant_types", .arr [.str "authorization_code"])], false⟩,
  ⟨363, .obj [("grant_types", .obj [("value", .arr [.str "authorization_code"]), ("essential", .bool true)])], .obj [("grant_types", .obj [("subset_of", .arr [.str "authorization_code", .str "refresh_token"])])], some (.obj [("grant_types", .obj [("subset_of", .arr [.str "authorization_code", .str "refresh_token"]), ("value", .arr [.str "authorization_code"]), ("essential", .bool true)])]), .obj [("grant_types", .arr [.str "password"])], .obj [("grant_types", .arr [.str "authorization_code"])], false⟩,
  ⟨364, .obj [("grant_types", .obj [("value", .arr [.str "authorization_code"])])], .obj [("grant_types", .obj [("subset_of", .arr [.str "authorization_code", .str "refresh_token"]), ("essential", .bool true)])], some (.obj [("grant_types", .obj [("subset_of", .arr [.str "authorization_code", .str "refresh_token"]), ("value", .arr [.str "authorization_code"]), ("essential", .bool true)])]), .obj [("grant_types", .arr [.str "password"])], .obj [("grant_types", .arr [.str "authorization_code"])], false⟩,
  ⟨365, .obj [("grant_types", .obj [("value", .arr [.str "authorization_code"])])], .obj [("grant_types", .obj [("subset_of", .arr [.str "authorization_code", .str "refresh_token"])])], some (.obj [("grant_types", .obj [("subset_of", .arr [.str "authorization_code", .str "refresh_token"]), ("value", .arr [.str "authorization_code"])])]), .obj [("grant_types", .arr [.str "password"])], .obj [("grant_types", .arr [.str "authorization_code"])], false⟩,
  ⟨366, .obj [("grant_types", .obj [("value", .arr [.str "authorization_code"]), ("essential", .bool true)])], .obj [("grant_types", .obj [("subset_of", .arr [.str "authorization_code", .str "refresh_token"]), ("essential", .bool true)])], some (.obj [("grant_types", .obj [("subset_of", .arr [.str "authorization_code", .str "refresh_token"]), ("value", .arr [.str "authorization_code"]), ("essential", .bool true)])]), .obj [("grant_types", .arr [.str "authorization_code", .str "refresh_token"])], .obj [("grant_types", .arr [.str "authorization_code"])], false⟩,
  ⟨367, .obj [("grant_types", .obj [("value", .arr [.str "authorization_code"]), ("essential", .bool true)])], .obj [("grant_types", .obj [("subset_of", .arr [.str "authorization_code", .str "refresh_token"])])], some (.obj [("grant_types", .obj [("subset_of", .arr [.str "authorization_code", .str "refresh_token"]), ("value", .arr [.str "authorization_code"]), ("essential", .bool true)])]), .obj [("grant_types", .arr [.str "authorization_code", .str "refresh_token"])], .obj [("grant_types", .arr [.str "authorization_code"])], false⟩,
  ⟨368, .obj [("grant_types", .obj [("value", .arr [.str "authorization_code"])])], .obj [("grant_types", .obj [("subset_of", .arr [.str "authorization_code", .str "refresh_token"]), ("essential", .bool true)])], some (.obj [("grant_types", .obj [("subset_of", .arr [.str "authorization_code", .str "refresh_token"]), ("value", .arr [.str "authorization_code"]), ("essential", .bool true)])]), .obj [("grant_types", .arr [.str "authorization_code", .str "refresh_token"])], .obj [("grant_types", .arr [.str "authorization_code"])], false⟩,
  ⟨369, .obj [("grant_types", .obj [("value", .arr [.str "authorization_code"])])], .obj [("grant_types", .obj [("subset_of", .arr [.str "authorization_code", .str "refresh_token"])])], some (.obj [("grant_types", .obj [("subset_of", .arr [.str "authorization_code", .str "refresh_token"]), ("value", .arr [.str "authorization_code"])])]), .obj [("grant_types", .arr [.str "authorization_code", .str "refresh_token"])], .obj [("grant_types", .arr [.str "authorization_code"])], false⟩,
  ⟨370, .obj [("grant_types", .obj [("value", .arr [.str "authorization_code"]), ("essential", .bool true)])], .obj [("grant_types", .obj [("subset_of", .arr [.str "authorization_code", .str "refresh_token"]), ("essential", .bool true)])], some (.obj [("grant_types", .obj [("subset_of", .arr [.str "authorization_code", .str "refresh_token"]), ("value", .arr [.str "authorization_code"]), ("essential", .bool true)])]), .obj [("grant_types", .arr [.str "authorization_code", .str "password"])], .obj [("grant_types", .arr [.str "authorization_code"])], false⟩,
  ⟨371, .obj [("grant_types", .obj [("value", .arr [.str "authorization_code"]), ("essential", .bool true)])], .obj [("grant_types", .obj [("subset_of", .arr [.str "authorization_code", .str "refresh_token"])])], some (.obj [("grant_types", .obj [("subset_of", .arr [.str "authorization_code", .str "refresh_token"]), ("value", .arr [.str "authorization_code"]), ("essential", .bool true)])]), .obj [("grant_types", .arr [.str "authorization_code", .str "password"])], .obj [("grant_types", .arr [.str "authorization_code"])], false⟩,
  ⟨372, .obj [("grant_types", .obj [("value", .arr [.str "authorization_code"])])], .obj [("grant_types", .obj [("subset_of", .arr [.str "authorization_code", .str "refresh_token"]), ("essential", .bool true)])], some (.obj [("grant_types", .obj [("subset_of", .arr [.str "authorization_code", .str "refresh_token"]), ("value", .arr [.str "authorization_code"]), ("essential", .bool true)])]), .obj [("grant_types", .arr [.str "authorization_code", .str "password"])], .obj [("grant_types", .arr [.str "authorization_code"])], false⟩,
  ⟨373, .obj [("grant_types", .obj [("value", .arr [.str "authorization_code"])])], .obj [("grant_types", .obj [("subset_of", .arr [.str "authorization_code", .str "refresh_token"])])], some (.obj [("grant_types", .obj [("subset_of", .arr [.str "authorization_code", .str "refresh_token"]), ("value", .arr [.str "authorization_code"])])]), .obj [("grant_types", .arr [.str "authorization_code", .str "password"])], .obj [("grant_types", .arr [.str "authorization_code"])], false⟩,
  ⟨374, .obj [("grant_types", .obj [("value", .arr [.str "authorization_code"]), ("essential", .bool true)])], .obj [("grant_types", .obj [("subset_of", .arr [.str "authorization_code", .str "refresh_token"]), ("essential", .bool true)])], some (.obj [("grant_types", .obj [("subset_of", .arr [.str "authorization_code", .str "refresh_token"]), ("value", .arr [.str "authorization_code"]), ("essential", .bool true)])]), .obj [("grant_types", .arr [])], .obj [("grant_types", .arr [.str "authorization_code"])], false⟩,
  ⟨375, .obj [("grant_types", .obj [("value", .arr [.str "authorization_code"]), ("essential", .bool true)])], .obj [("grant_types", .obj [("subset_of", .arr [.str "authorization_code", .str "refresh_token"])])], some (.obj [("grant_types", .obj [("subset_of", .arr [.str "authorization_code", .str "refresh_token"]), ("value", .arr [.str "authorization_code"]), ("essential", .bool true)])]), .obj [("grant_types", .arr [])], .obj [("grant_types", .arr [.str "authorization_code"])], false⟩,
  ⟨376, .obj [("grant_types", .obj [("value", .arr [.str "authorization_code"])])], .obj [("grant_types", .obj [("subset_of", .arr [.str "authorization_code", .str "refresh_token"]), ("essential", .bool true)])], some (.obj [("grant_types", .obj [("subset_of", .arr [.str "authorization_code", .str "refresh_token"]), ("value", .arr [.str "authorization_code"]), ("essential", .bool true)])]), .obj [("grant_types", .arr [])], .obj [("grant_types", .arr [.str "authorization_code"])], false⟩,
  ⟨377, .obj [("grant_types", .obj [("value", .arr [.str "authorization_code"])])], .obj [("grant_types", .obj [("subset_of", .arr [.str "authorization_code", .str "refresh_token"])])], some (.obj [("grant_types", .obj [("subset_of", .arr [.str "authorization_code", .str "refresh_token"]), ("value", .arr [.str "authorization_code"])])]), .obj [("grant_types", .arr [])], .obj [("grant_types", .arr [.str "authorization_code"])], false⟩,
  ⟨378, .obj [("grant_types", .obj [("value", .arr [.str "authorization_code"]), ("essential", .bool true)])], .obj [("grant_types", .obj [("subset_of", .arr [.str "authorization_code", .str "refresh_token"]), ("essential", .bool true)])], some (.obj [("grant_types", .obj [("subset_of", .arr [.str "authorization_code", .str "refresh_token"]), ("value", .arr [.str "authorization_code"]), ("essential", .bool true)])]), .obj [], .obj [("grant_types", .arr [.str "authorization_code"])], false⟩,
  ⟨379, .obj [("grant_types", .obj [("value", .arr [.str "authorization_code"]), ("essential", .bool true)])], .obj [("grant_types", .obj [("subset_of", .arr [.str "authorization_code", .str "refresh_token"])])], some (.obj [("grant_types", .obj [("subset_of", .arr [.str "authorization_code", .str "refresh_token"]), ("value", .arr [.str "authorization_code"]), ("essential", .bool true)])]), .obj [], .obj [("grant_types", .arr [.str "authorization_code"])], false⟩,
  ⟨380, .obj [("grant_types", .obj [("value", .arr [.str "authorization_code"])])], .obj [("grant_types", .obj [("subset_of", .arr [.str "authorization_code", .str "refresh_token"]), ("essential", .bool true)])], some (.obj [("grant_types", .obj [("subset_of", .arr [.str "authorization_code", .str "refresh_token"]), ("value", .arr [.str "authorization_code"]), ("essential", .bool true)])]), .obj [], .obj [("grant_types", .arr [.str "authorization_code"])], false⟩,
  ⟨381, .obj [("grant_types", .obj [("value", .arr [.str "authorization_code"])])], .obj [("grant_types", .obj [("subset_of", .arr [.str "authorization_code", .str "refresh_token"])])], some (.obj [("grant_types", .obj [("subset_of", .arr [.str "authorization_code", .str "refresh_token"]), ("value", .arr [.str "authorization_code"])])]), .obj [], .obj [("grant_types", .arr [.str "authorization_code"])], false⟩,
  ⟨382, .obj [("grant_types", .obj [("value", .arr []), ("essential", .bool true)])], .obj [("grant_types", .obj [("superset_of", .arr [.str "authorization_code"]), ("essential", .bool true)])], none, .obj [("grant_types", .arr [.str "authorization_code"])], .obj [], true⟩,
  ⟨383, .obj [("grant_types", .obj [("value", .arr []), ("essential", .bool true)])], .obj [("grant_types", .obj [("superset_of", .arr [.str "authorization_code"])])], none, .obj [("grant_types", .arr [.str "authorization_code"])], .obj [], true⟩,
  ⟨384, .obj [("grant_types", .obj [("value", .arr [])])], .obj [("grant_types", .obj [("superset_of", .arr [.str "authorization_code"]), ("essential", .bool true)])], none, .obj [("grant_types", .arr [.str "authorization_code"])], .obj [], true⟩,
  ⟨385, .obj [("grant_types", .obj [("value", .arr [])])], .obj [("grant_types", .obj [("superset_of", .arr [.str "authorization_code"])])], none, .obj [("grant_types", .arr [.str "authorization_code"])], .obj [], true⟩,
  ⟨386, .obj [("grant_types", .obj [("value", .arr []), ("essential", .bool true)])], .obj [("grant_types", .obj [("superset_of", .arr [.str "authorization_code"]), ("essential", .bool true)])], none, .obj [("grant_types", .arr [.str "password"])], .obj [], true⟩,
  ⟨387, .obj [("grant_types", .obj [("value", .arr []), ("essential", .bool true)])], .obj [("grant_types", .obj [("superset_of", .arr [.str "authorization_code"])])], none, .obj [("grant_types", .arr [.str "password"])], .obj [], true⟩,
  ⟨388, .obj [("grant_types", .obj [("value", .arr [])])], .obj [("grant_types", .obj [("superset_of", .arr [.str "authorization_code"]), ("essential", .bool true)])], none, .obj [("grant_types", .arr [.str "password"])], .obj [], true⟩,
  ⟨389, .obj [("grant_types", .obj [("value", .arr [])])], .obj [("grant_types", .obj [("superset_of", .arr [.str "authorization_code"])])], none, .obj [("grant_types", .arr [.str "password"])], .obj [], true⟩,
  ⟨390, .obj [("grant_types", .obj [("value", .arr []), ("essential", .bool true)])], .obj [("grant_types", .obj [("superset_of", .arr [.str "authorization_code"]), ("essential", .bool true)])], none, .obj [("grant_types", .arr [.str "authorization_code", .str "refresh_token"])], .obj [], true⟩,
  ⟨391, .obj [("grant_types", .obj [("value", .arr []), ("essential", .bool true)])], .obj [("grant_types", .obj [("superset_of", .arr [.str "authorization_code"])])], none, .obj [("grant_types", .arr [.str "authorization_code", .str "refresh_token"])], .obj [], true⟩,
  ⟨392, .obj [("grant_types", .obj [("value", .arr [])])], .obj [("grant_types", .obj [("superset_of", .arr [.str "authorization_code"]), ("essential", .bool true)])], none, .obj [("grant_types", .arr [.str "authorization_code", .str "refresh_token"])], .obj [], true⟩,
  ⟨393, .obj [("grant_types", .obj [("value", .arr [])])], .obj [("grant_types", .obj [("superset_of", .arr [.str "authorization_code"])])], none, .obj [("grant_types", .arr [.str "authorization_code", .str "refresh_token"])], .obj [], true⟩,
  ⟨394, .obj [("grant_types", .obj [("value", .arr []), ("essential", .bool true)])], .obj [("grant_types", .obj [("superset_of", .arr [.str "authorization_code"]), ("essential", .bool true)])], none, .obj [("grant_types", .arr [.str "authorization_code", .str "password"])], .obj [], true⟩,
  ⟨395, .obj [("grant_types", .obj [("value", .arr []), ("essential", .bool true)])], .obj [("grant_types", .obj [("superset_of", .arr [.str "authorization_code"])])], none, .obj [("grant_types", .arr [.str "authorization_code", .str "password"])], .obj [], true⟩,
  ⟨396, .obj [("grant_types", .obj [("value", .arr [])])], .obj [("grant_types", .obj [("superset_of", .arr [.str "authorization_code"]), ("essential", .bool true)])], none, .obj [("grant_types", .arr [.str "authorization_code", .str "password"])], .obj [], true⟩,
  ⟨397, .obj [("grant_types", .obj [("value", .arr [])])], .obj [("grant_types", .obj [("superset_of", .arr [.str "authorization_code"])])], none, .obj [("grant_types", .arr [.str "authorization_code", .str "password"])], .obj [], true⟩,
  ⟨398, .obj [("grant_types", .obj [("value", .arr []), ("essential", .bool true)])], .obj [("grant_types", .obj [("superset_of", .arr [.str "authorization_code"]), ("essential", .bool true)])], none, .obj [("grant_types", .arr [])], .obj [], true⟩,
  ⟨399, .obj [("grant_types", .obj [("value", .arr []), ("essential", .bool true)])], .obj [("grant_types", .obj [("superset_of", .arr [.str "authorization_code"])])], none, .obj [("grant_types", .arr [])], .obj [], true⟩,
  ⟨400, .obj [("grant_types", .obj [("value", .arr [])])], .obj [("grant_types", .obj [("superset_of", .arr [.str "authorization_code"]), ("essential", .bool true)])], none, .obj [("grant_types", .arr [])], .obj [], true⟩,
  ⟨401, .obj [("grant_types", .obj [("value", .arr [])])], .obj [("grant_types", .obj [("superset_of", .arr [.str "authorization_code"])])], none, .obj [("grant_types", .arr [])], .obj [], true⟩,
  ⟨402, .obj [("grant_types", .obj [("value", .arr []), ("essential", .bool true)])], .obj [("grant_types", .obj [("superset_of", .arr [.str "authorization_code"]), ("essential", .bool true)])], none, .obj [], .obj [], true⟩,
  ⟨403, .obj [("grant_types", .obj [("value", .arr []), ("essential", .bool true)])], .obj [("grant_types", .obj [("superset_of", .arr [.str "authorization_code"])])], none, .obj [], .obj [], true⟩,
  ⟨404, .obj [("grant_types", .obj [("value", .arr [])])], .obj [("grant_types", .obj [("superset_of", .arr [.str "authorization_code"]), ("essential", .bool true)])], none, .obj [], .obj [], true⟩,
  ⟨405, .obj [("grant_types", .obj [("value", .arr [])])], .obj [("grant_types", .obj [("superset_of", .arr [.str "authorization_code"])])], none, .obj [], .obj [], true⟩,
  ⟨406, .obj [("grant_types", .obj [("value", .arr []), ("essential", .bool true)])], .obj [("grant_types", .obj [("superset_of", .arr [.str "authorization_code", .str "refresh_token"]), ("essential", .bool true)])], none, .obj [("grant_types", .arr [.str "authorization_code"])], .obj [], true⟩,
  ⟨407, .obj [("grant_types", .obj [("value", .arr []), ("essential", .bool true)])], .obj [("grant_types", .obj [("superset_of", .arr [.str "authorization_code", .str "refresh_token"])])], none, .obj [("grant_types", .arr [.str "authorization_code"])], .obj [], true⟩,
  ⟨408, .obj [("grant_types", .obj [("value", .arr [])])], .obj [("grant_types", .obj [("superset_of", .arr [.str "authorization_code", .str "refresh_token"]), ("essential", .bool true)])], none, .obj [("grant_types", .arr [.str "authorization_code"])], .obj [], true⟩,
  ⟨409, .obj [("grant_types", .obj [("value", .arr [])])], .obj [("grant_types", .obj [("superset_of", .arr [.str "authorization_code", .str "refresh_token"])])], none, .obj [("grant_types", .arr [.str "authorization_code"])], .obj [], true⟩,
  ⟨410, .obj [("grant_types", .obj [("value", .arr []), ("essential", .bool true)])], .obj [("grant_types", .obj [("superset_of", .arr [.str "authorization_code", .str "refresh_token"]), ("essential", .bool true)])], none, .obj [("grant_types", .arr [.str "password"])], .obj [], true⟩,
  ⟨411, .obj [("grant_types", .obj [("value", .arr []), ("essential", .bool true)])], .obj [("grant_types", .obj [("superset_of", .arr [.str "authorization_code", .str "refresh_token"])])], none, .obj [("grant_types", .arr [.str "password"])], .obj [], true⟩,
  ⟨412, .obj [("grant_types", .obj [("value", .arr [])])], .obj [("grant_types", .obj [("superset_of", .arr [.str "authorization_code", .str "refresh_token"]), ("essential", .bool true)])], none, .obj [("grant_types", .arr [.str "password"])], .obj [], true⟩,
  ⟨413, .obj [("grant_types", .obj [("value", .arr [])])], .obj [("grant_types", .obj [("superset_of", .arr [.str "authorization_code", .str "refresh_token"])])], none, .obj [("grant_types", .arr [.str "password"])], .obj [], true⟩,
  ⟨414, .obj [("grant_types", .obj [("value", .arr []), ("essential", .bool true)])], .obj [("grant_types", .obj [("superset_of", .arr [.str "authorization_code", .str "refresh_token"]), ("essential", .bool true)])], none, .obj [("grant_types", .arr [.str "authorization_code", .str "refresh_token"])], .obj [], true⟩,
  ⟨415, .obj [("grant_types", .obj [("value", .arr []), ("essential", .bool true)])], .obj [("grant_types", .obj [("superset_of", .arr [.str "authorization_code", .str "refresh_token"])])], none, .obj [("grant_types", .arr [.str "authorization_code", .str "refresh_token"])], .obj [], true⟩,
  ⟨416, .obj [("grant_types", .obj [("value", .arr [])])], .obj [("grant_types", .obj [("superset_of", .arr [.str "authorization_code", .str "refresh_token"]), ("essential", .bool true)])], none, .obj [("grant_types", .arr [.str "authorization_code", .str "refresh_token"])], .obj [], true⟩,
  ⟨417, .obj [("grant_types", .obj [("value", .arr [])])], .obj [("grant_types", .obj [("superset_of", .arr [.str "authorization_code", .str "refresh_token"])])], none, .obj [("grant_types", .arr [.str "authorization_code", .str "refresh_token"])], .obj [], true⟩,
  ⟨418, .obj [("grant_types", .obj [("value", .arr []), ("essential", .bool true)])], .obj [("grant_types", .obj [("superset_of", .arr [.str "authorization_code", .str "refresh_token"]), ("essential", .bool true)])], none, .obj [("grant_types", .arr [.str "authorization_code", .str "password"])], .obj [], true⟩,
  ⟨419, .obj [("grant_types", .obj [("value", .arr []), ("essential", .bool true)])], .obj [("grant_types", .obj [("superset_of", .arr [.str "authorization_code", .str "refresh_token"])])], none, .obj [("grant_types", .arr [.str "authorization_code", .str "password"])], .obj [], true⟩,
  ⟨420, .obj [("grant_types", .obj [("value", .arr [])])], .obj [("grant_types", .obj [("superset_of", .arr [.str "authorization_code", .str "refresh_token"]), ("essential", .bool true)])], none, .obj [("grant_types", .arr [.str "authorization_code", .str "password"])], .obj [], true⟩,
  ⟨421, .obj [("grant_types", .obj [("value", .arr [])])], .obj [("grant_types", .obj [("superset_of", .arr [.str "authorization_code", .str "refresh_token"])])], none, .obj [("grant_types", .arr [.str "authorization_code", .str "password"])], .obj [], true⟩,
  ⟨422, .obj [("grant_types", .obj [("value", .arr []), ("essential", .bool true)])], .obj [("grant_types", .obj [("superset_of", .arr [.str "authorization_code", .str "refresh_token"]), ("essential", .bool true)])], none, .obj [("grant_types", .arr [])], .obj [], true⟩,
  ⟨423, .obj [("grant_types", .obj [("value", .arr []), ("essential", .bool true)])], .obj [("grant_types", .obj [("superset_of", .arr [.str "authorization_code", .str "refresh_token"])])], none, .obj [("grant_types", .arr [])], .obj [], true⟩,
  ⟨424, .obj [("grant_types", .obj [("value", .arr [])])], .obj [("grant_types", .obj [("superset_of", .arr [.str "authorization_code", .str "refresh_token"]), ("essential", .bool true)])], none, .obj [("grant_types", .arr [])], .obj [], true⟩,
  ⟨425, .obj [("grant_types", .obj [("value", .arr [])])], .obj [("grant_types", .obj [("superset_of", .arr [.str "authorization_code", .str "refresh_token"])])], none, .obj [("grant_types", .arr [])], .obj [], true⟩,
  ⟨426, .obj [("grant_types", .obj [("value", .arr []), ("essential", .bool true)])], .obj [("grant_types", .obj [("superset_of", .arr [.str "authorization_code", .str "refresh_token"]), ("essential", .bool true)])], none, .obj [], .obj [], true⟩,
  ⟨427, .obj [("grant_types", .obj [("value", .arr []), ("essential", .bool true)])], .obj [("grant_types", .obj [("superset_of", .arr [.str "authorization_code", .str "refresh_token"])])], none, .obj [], .obj [], true⟩,
  ⟨428, .obj [("grant_types", .obj [("value", .arr [])])], .obj [("grant_types", .obj [("superset_of", .arr [.str "authorization_code", .str "refresh_token"]), ("essential", .bool true)])], none, .obj [], .obj [], true⟩,
  ⟨429, .obj [("grant_types", .obj [("value", .arr [])])], .obj [("grant_types", .obj [("superset_of", .arr [.str "authorization_code", .str "refresh_token"])])], none, .obj [], .obj [], true⟩,
  ⟨430, .obj [("grant_types", .obj [("value", .arr [.str "authorization_code"]), ("essential", .bool true)])], .obj [("grant_types", .obj [("superset_of", .arr [.str "authorization_code", .str "refresh_token"]), ("essential", .bool true)])], none, .obj [("grant_types", .arr [.str "authorization_code"])], .obj [], true⟩,
  ⟨431, .obj [("grant_types", .obj [("value", .arr [.str "authorization_code"]), ("essential", .bool true)])], .obj [("grant_types", .obj [("superset_of", .arr [.str "authorization_code", .str "refresh_token"])])], none, .obj [("grant_types", .arr [.str "authorization_code"])], .obj [], true⟩,
  ⟨432, .obj [("grant_types", .obj [("value", .arr [.str "authorization_code"])])], .obj [("grant_types", .obj [("superset_of", .arr [.str "authorization_code", .str "refresh_token"]), ("essential", .bool true)])], none, .obj [("grant_types", .arr [.str "authorization_code"])], .obj [], true⟩,
  ⟨433, .obj [("grant_types", .obj [("value", .arr [.str "authorization_code"])])], .obj [("grant_types", .obj [("superset_of", .arr [.str "authorization_code", .str "refresh_token"])])], none, .obj [("grant_types", .arr [.str "authorization_code"])], .obj [], true⟩,
  ⟨434, .obj [("grant_types", .obj [("value", .arr [.str "authorization_code"]), ("essential", .bool true)])], .obj [("grant_types", .obj [("superset_of", .arr [.str "authorization_code", .str "refresh_token"]), ("essential", .bool true)])], none, .obj [("grant_types", .arr [.str "password"])], .obj [], true⟩,
  ⟨435, .obj [("grant_types", .obj [("value", .arr [.str "authorization_code"]), ("essential", .bool true)])], .obj [("grant_types", .obj [("superset_of", .arr [.str "authorization_code", .str "refresh_token"])])], none, .obj [("grant_types", .arr [.str "password"])], .obj [], true⟩,
  ⟨436, .obj [("grant_types", .obj [("value", .arr [.str "authorization_code"])])], .obj [("grant_types", .obj [("superset_of", .arr [.str "authorization_code", .str "refresh_token"]), ("essential", .bool true)])], none, .obj [("grant_types", .arr [.str "password"])], .obj [], true⟩,
  ⟨437, .obj [("grant_types", .obj [("value", .arr [.str "authorization_code"])])], .obj [("grant_types", .obj [("superset_of", .arr [.str "authorization_code", .str "refresh_token"])])], none, .obj [("grant_types", .arr [.str "password"])], .obj [], true⟩,
  ⟨438, .obj [("grant_types", .obj [("value", .arr [.str "authorization_code"]), ("essential", .bool true)])], .obj [("grant_types", .obj [("superset_of", .arr [.str "authorization_code", .str "refresh_token"]), ("essential", .bool true)])], none, .obj [("grant_types", .arr [.str "authorization_code", .str "refresh_token"])], .obj [], true⟩,
  ⟨439, .obj [("grant_types", .obj [("value", .arr [.str "authorization_code"]), ("essential", .bool true)])], .obj [("grant_types", .obj [("superset_of", .arr [.str "authorization_code", .str "refresh_token"])])], none, .obj [("grant_types", .arr [.str "authorization_code", .str "refresh_token"])], .obj [], true⟩,
  ⟨440, .obj [("grant_types", .obj [("value", .arr [.str "authorization_code"])])], .obj [("grant_types", .obj [("superset_of", .arr [.str "authorization_code", .str "refresh_token"]), ("essential", .bool true)])], none, .obj [("grant_types", .arr [.str "authorization_code", .str "refresh_token"])], .obj [], true⟩,
  ⟨441, .obj [("grant_types", .obj [("value", .arr [.str "authorization_code"])])], .obj [("grant_types", .obj [("superset_of", .arr [.str "authorization_code", .str "refresh_token"])])], none, .obj [("grant_types", .arr [.str "authorization_code", .str "refresh_token"])], .obj [], true⟩,
  ⟨442, .obj [("grant_types", .obj [("value", .arr [.str "authorization_code"]), ("essential", .bool true)])], .obj [("grant_types", .obj [("superset_of", .arr [.str "authorization_code", .str "refresh_token"]), ("essential", .bool true)])], none, .obj [("grant_types", .arr [.str "authorization_code", .str "password"])], .obj [], true⟩,
  ⟨443, .obj [("grant_types", .obj [("value", .arr [.str "authorization_code"]), ("essential", .bool true)])], .obj [("grant_types", .obj [("superset_of", .arr [.str "authorization_code", .str "refresh_token"])])], none, .obj [("grant_types", .arr [.str "authorization_code", .str "password"])], .obj [], true⟩,
  ⟨444, .obj [("grant_types", .obj [("value", .arr [.str "authorization_code"])])], .obj [("grant_types", .obj [("superset_of", .arr [.str "authorization_code", .str "refresh_token"]), ("essential", .bool true)])], none, .obj [("grant_types", .arr [.str "authorization_code", .str "password"])], .obj [], true⟩,
  ⟨445, .obj [("grant_types", .obj [("value", .arr [.str "authorization_code"])])], .obj [("grant_types", .obj [("superset_of", .arr [.str "authorization_code", .str "refresh_token"])])], none, .obj [("grant_types", .arr [.str "authorization_code", .str "password"])], .obj [], true⟩,
  ⟨446, .obj [("grant_types", .obj [("value", .arr [.str "authorization_code"]), ("essential", .bool true)])], .obj [("grant_types", .obj [("superset_of", .arr [.str "authorization_code", .str "refresh_token"]), ("essential", .bool true)])], none, .obj [("grant_types", .arr [])], .obj [], true⟩,
  ⟨447, .obj [("grant_types", .obj [("value", .arr [.str "authorization_code"]), ("essential", .bool true)])], .obj [("grant_types", .obj [("superset_of", .arr [.str "authorization_code", .str "refresh_token"])])], none, .obj [("grant_types", .arr [])], .obj [], true⟩,
  ⟨448, .obj [("grant_types", .obj [("value", .arr [.str "authorization_code"])])], .obj [("grant_types", .obj [("superset_of", .arr [.str "authorization_code", .str "refresh_token"]), ("essential", .bool true)])], none, .obj [("grant_types", .arr [])], .obj [], true⟩,
  ⟨449, .obj [("grant_types", .obj [("value", .arr [.str "authorization_code"])])], .obj [("grant_types", .obj [("superset_of", .arr [.str "authorization_code", .str "refresh_token"])])], none, .obj [("grant_types", .arr [])], .obj [], true⟩,
  ⟨450, .obj [("grant_types", .obj [("value", .arr [.str "authorization_code"]), ("essential", .bool true)])], .obj [("grant_types", .obj [("superset_of", .arr [.str "authorization_code", .str "refresh_token"]), ("essential", .bool true)])], none, .obj [], .obj [], true⟩,
  ⟨451, .obj [("grant_types", .obj [("value", .arr [.str "authorization_code"]), ("essential", .bool true)])], .obj [("grant_types", .obj [("superset_of", .arr [.str "authorization_code", .str "refresh_token"])])], none, .obj [], .obj [], true⟩,
  ⟨452, .obj [("grant_types", .obj [("value", .arr [.str "authorization_code"])])], .obj [("grant_types", .obj [("superset_of", .arr [.str "authorization_code", .str "refresh_token"]), ("essential", .bool true)])], none, .obj [], .obj [], true⟩,
  ⟨453, .obj [("grant_types", .obj [("value", .arr [.str "authorization_code"])])], .obj [("grant_types", .obj [("superset_of", .arr [.str "authorization_code", .str "refresh_token"])])], none, .obj [], .obj [], true⟩,
  ⟨454, .obj [("grant_types", .obj [("add", .arr []), ("essential", .bool true)])], .obj [("grant_types", .obj [("value", .arr [.str "authorization_code"]), ("essential", .bool true)])], some (.obj [("grant_types", .obj [("add", .arr []), ("value", .arr [.str "authorization_code"]), ("essential", .bool true)])]), .obj [("grant_types", .arr [.str "authorization_code"])], .obj [("grant_types", .arr [.str "authorization_code"])], false⟩,
  ⟨455, .obj [("grant_types", .obj [("add", .arr []), ("essential", .bool true)])], .obj [("grant_types", .obj [("value", .arr [.str "authorization_code"])])], some (.obj [("grant_types", .obj [("add", .arr []), ("value", .arr [.str "authorization_code"]), ("essential", .bool true)])]), .obj [("grant_types", .arr [.str "authorization_code"])], .obj [("grant_types", .arr [.str "authorization_code"])], false⟩,
  ⟨456, .obj [("grant_types", .obj [("add", .arr [])])], .obj [("grant_types", .obj [("value", .arr [.str "authorization_code"]), ("essential", .bool true)])], some (.obj [("grant_types", .obj [("add", .arr []), ("value", .arr [.str "authorization_code"]), ("essential", .bool true)])]), .obj [("grant_types", .arr [.str "authorization_code"])], .obj [("grant_types", .arr [.str "authorization_code"])], false⟩,
  ⟨457, .obj [("grant_types", .obj [("add", .arr [])])], .obj [("grant_types", .obj [("value", .arr [.str "authorization_code"])])], some (.obj [("grant_types", .obj [("add", .arr []), ("value", .arr [.str "authorization_code"])])]), .obj [("grant_types", .arr [.str "authorization_code"])], .obj [("grant_types", .arr [.str "authorization_code"])], false⟩,
  ⟨458, .obj [("grant_types", .obj [("add", .arr []), ("essential", .bool true)])], .obj [("grant_types", .obj [("value", .arr [.str "authorization_code"]), ("essential", .bool true)])], some (.obj [("grant_types", .obj [("add", .arr []), ("value", .arr [.str "authorization_code"]), ("essential", .bool true)])]), .obj [("grant_types", .arr [.str "password"])], .obj [("grant_types", .arr [.str "authorization_code"])], false⟩,
  ⟨459, .obj [("grant_types", .obj [("add", .arr []), ("essential", .bool true)])], .obj [("grant_types", .obj [("value", .arr [.str "authorization_code"])])], some (.obj [("grant_types", .obj [("add", .arr []), ("value", .arr [.str "authorization_code"]), ("essential", .bool true)])]), .obj [("grant_types", .arr [.str "password"])], .obj [("grant_types", .arr [.str "authorization_code"])], false⟩,
  ⟨460, .obj [("grant_types", .obj [("add", .arr [])])], .obj [("grant_types", .obj [("value", .arr [.str "authorization_code"]), ("essential", .bool true)])], some (.obj [("grant_types", .obj [("add", .arr []), ("value", .arr [.str "authorization_code"]), ("essential", .bool true)])]), .obj [("grant_types", .arr [.str "password"])], .obj [("grant_types", .arr [.str "authorization_code"])], false⟩,
  ⟨461, .obj [("grant_types", .obj [("add", .arr [])])], .obj [("grant_types", .obj [("value", .arr [.str "authorization_code"])])], some (.obj [("grant_types", .obj [("add", .arr []), ("value", .arr [.str "authorization_code"])])]), .obj [("grant_types", .arr [.str "password"])], .obj [("grant_types", .arr [.str "authorization_code"])], false⟩,
  ⟨462, .obj [("grant_types", .obj [("add", .arr []), ("essential", .bool true)])], .obj [("grant_types", .obj [("value", .arr [.str "authorization_code"]), ("essential", .bool true)])], some (.obj [("grant_types", .obj [("add", .arr []), ("value", .arr [.str "authorization_code"]), ("essential", .bool true)])]), .obj [("grant_types", .arr [.str "authorization_code", .str "refresh_token"])], .obj [("grant_types", .arr [.str "authorization_code"])], false⟩,
  ⟨463, .obj [("grant_types", .obj [("add", .arr []), ("essential", .bool true)])], .obj [("grant_types", .obj [("value", .arr [.str "authorization_code"])])], some (.obj [("grant_types", .obj [("add", .arr []), ("value", .arr [.str "authorization_code"]), ("essential", .bool true)])]), .obj [("grant_types", .arr [.str "authorization_code", .str "refresh_token"])], .obj [("grant_types", .arr [.str "authorization_code"])], false⟩,
  ⟨464, .obj [("grant_types", .obj [("add", .arr [])])], .obj [("grant_types", .obj [("value", .arr [.str "authorization_code"]), ("essential", .bool true)])], some (.obj [("grant_types", .obj [("add", .arr []), ("value", .arr [.str "authorization_code"]), ("essential", .bool true)])]), .obj [("grant_types", .arr [.str "authorization_code", .str "refresh_token"])], .obj [("grant_types", .arr [.str "authorization_code"])], false⟩,
  ⟨465, .obj [("grant_types", .obj [("add", .arr [])])], .obj [("grant_types", .obj [("value", .arr [.str "authorization_code"])])], some (.obj [("grant_types", .obj [("add", .arr []), ("value", .arr [.str "authorization_code"])])]), .obj [("grant_types", .arr [.str "authorization_code", .str "refresh_token"])], .obj [("grant_types", .arr [.str "authorization_code"])], false⟩,
  ⟨466, .obj [("grant_types", .obj [("add", .arr []), ("essential", .bool true)])], .obj [("grant_types", .obj [("value", .arr [.str "authorization_code"]), ("essential", .bool true)])], some (.obj [("grant_types", .obj [("add", .arr []), ("value", .arr [.str "authorization_code"]), ("essential", .bool true)])]), .obj [("grant_types", .arr [.str "authorization_code", .str "password"])], .obj [("grant_types", .arr [.str "authorization_code"])], false⟩,
  ⟨467, .obj [("grant_types", .obj [("add", .arr []), ("essential", .bool true)])], .obj [("grant_types", .obj [("value", .arr [.str "authorization_code"])])], some (.obj [("grant_types", .obj [("add", .arr []), ("value", .arr [.str "authorization_code"]), ("essential", .bool true)])]), .obj [("grant_types", .arr [.str "authorization_code", .str "password"])], .obj [("grant_types", .arr [.str "authorization_code"])], false⟩,
  ⟨468, .obj [("grant_types", .obj [("add", .arr [])])], .obj [("grant_types", .obj [("value", .arr [.str "authorization_code"]), ("essential", .bool true)])], some (.obj [("grant_types", .obj [("add", .arr []), ("value", .arr [.str "authorization_code"]), ("essential", .bool true)])]), .obj [("grant_types", .arr [.str "authorization_code", .str "password"])], .obj [("grant_types", .arr [.str "authorization_code"])], false⟩,
  ⟨469, .obj [("grant_types", .obj [("add", .arr [])])], .obj [("grant_types", .obj [("value", .arr [.str "authorization_code"])])], some (.obj [("grant_types", .obj [("add", .arr []), ("value", .arr [.str "authorization_code"])])]), .obj [("grant_types", .arr [.str "authorization_code", .str "password"])], .obj [("grant_types", .arr [.str "authorization_code"])], false⟩,
  ⟨470, .obj [("grant_types", .obj [("add", .arr []), ("essential", .bool true)])], .obj [("grant_types", .obj [("value", .arr [.str "authorization_code"]), ("essential", .bool true)])], some (.obj [("grant_types", .obj [("add", .arr []), ("value", .arr [.str "authorization_code"]), ("essential", .bool true)])]), .obj [("grant_types", .arr [])], .obj [("grant_types", .arr [.str "authorization_code"])], false⟩,
  ⟨471, .obj [("grant_types", .obj [("add", .arr []), ("essential", .bool true)])], .obj [("grant_types", .obj [("value", .arr [.str "authorization_code"])])], some (.obj [("grant_types", .obj [("add", .arr []), ("value", .arr [.str "authorization_code"]), ("essential", .bool true)])]), .obj [("grant_types", .arr [])], .obj [("grant_types", .arr [.str "authorization_code"])], false⟩,
  ⟨472, .obj [("grant_types", .obj [("add", .arr [])])], .obj [("grant_types", .obj [("value", .arr [.str "authorization_code"]), ("essential", .bool true)])], some (.obj [("grant_types", .obj [("add", .arr []), ("value", .arr [.str "authorization_code"]), ("essential", .bool true)])]), .obj [("grant_types", .arr [])], .obj [("grant_types", .arr [.str "authorization_code"])], false⟩,
  ⟨473, .obj [("grant_types", .obj [("add", .arr [])])], .obj [("grant_types", .obj [("value", .arr [.str "authorization_code"])])], some (.obj [("grant_types", .obj [("add", .arr []), ("value", .arr [.str "authorization_code"])])]), .obj [("grant_types", .arr [])], .obj [("grant_types", .arr [.str "authorization_code"])], false⟩,
  ⟨474, .obj [("grant_types", .obj [("add", .arr []), ("essential", .bool true)])], .obj [("grant_types", .obj [("value", .arr [.str "authorization_code"]), ("essential", .bool true)])], some (.obj [("grant_types", .obj [("add", .arr []), ("value", .arr [.str "authorization_code"]), ("essential", .bool true)])]), .obj [], .obj [("grant_types", .arr [.str "authorization_code"])], false⟩,
  ⟨475, .obj [("grant_types", .obj [("add", .arr []), ("essential", .bool true)])], .obj [("grant_types", .obj [("value", .arr [.str "authorization_code"])])], some (.obj [("grant_types", .obj [("add", .arr []), ("value", .arr [.str "authorization_code"]), ("essential", .bool true)])]), .obj [], .obj [("grant_types", .arr [.str "authorization_code"])], false⟩,
  ⟨476, .obj [("grant_types", .obj [("add", .arr [])])], .obj [("grant_types", .obj [("value", .arr [.str "authorization_code"]), ("essential", .bool true)])], some (.obj [("grant_types", .obj [("add", .arr []), ("value", .arr [.str "authorization_code"]), ("essential", .bool true)])]), .obj [], .obj [("grant_types", .arr [.str "authorization_code"])], false⟩,
  ⟨477, .obj [("grant_types", .obj [("add", .arr [])])], .obj [("grant_types", .obj [("value", .arr [.str "authorization_code"])])], some (.obj [("grant_types", .obj [("add", .arr []), ("value", .arr [.str "authorization_code"])])]), .obj [], .obj [("grant_types", .arr [.str "authorization_code"])], false⟩,
  ⟨478, .obj [("grant_types", .obj [("add", .arr []), ("essential", .bool true)])], .obj [("grant_types", .obj [("value", .arr [.str "authorization_code", .str "refresh_token"]), ("essential", .bool true)])], some (.obj [("grant_types", .obj [("add", .arr []), ("value", .arr [.str "authorization_code", .str "refresh_token"]), ("essential", .bool true)])]), .obj [("grant_types", .arr [.str "authorization_code"])], .obj [("grant_types", .arr [.str "authorization_code", .str "refresh_token"])], false⟩,
  ⟨479, .obj [("grant_types", .obj [("add", .arr []), ("essential", .bool true)])], .obj [("grant_types", .obj [("value", .arr [.str "authorization_code", .str "refresh_token"])])], some (.obj [("grant_types", .obj [("add", .arr []), ("value", .arr [.str "authorization_code", .str "refresh_token"]), ("essential", .bool true)])]), .obj [("grant_types", .arr [.str "authorization_code"])], .obj [("grant_types", .arr [.str "authorization_code", .str "refresh_token"])], false⟩,
  ⟨480, .obj [("grant_types", .obj [("add", .arr [])])], .obj [("grant_types", .obj [("value", .arr [.str "authorization_code", .str "refresh_token"]), ("essential", .bool true)])], some (.obj [("grant_types", .obj [("add", .arr []), ("value", .arr [.str "authorization_code", .str "refresh_token"]), ("essential", .bool true)])]), .obj [("grant_types", .arr [.str "authorization_code"])], .obj [("grant_types", .arr [.str "authorization_code", .str "refresh_token"])], false⟩,
  ⟨481, .obj [("grant_types", .obj [("add", .arr [])])], .obj [("grant_types", .obj [("value", .arr [.str "authorization_code", .str "refresh_token"])])], some (.obj [("grant_types", .obj [("add", .arr []), ("value", .arr [.str "authorization_code", .str "refresh_token"])])]), .obj [("grant_types", .arr [.str "authorization_code"])], .obj [("grant_types", .arr [.str "authorization_code", .str "refresh_token"])], false⟩,
  ⟨482, .obj [("grant_types", .obj [("add", .arr []), ("essential", .bool true)])], .obj [("grant_types", .obj [("value", .arr [.str "authorization_code", .str "refresh_token"]), ("essential", .bool true)])], some (.obj [("grant_types", .obj [("add", .arr []), ("value", .arr [.str "authorization_code", .str "refresh_token"]), ("essential", .bool true)])]), .obj [("grant_types", .arr [.str "password"])], .obj [("grant_types", .arr [.str "authorization_code", .str "refresh_token"])], false⟩,
  ⟨483, .obj [("grant_types", .obj [("add", .arr []), ("essential", .bool true)])], .obj [("grant_types", .obj [("value", .arr [.str "authorization_code", .str "refresh_token"])])], some (.obj [("grant_types", .obj [("add", .arr []), ("value", .arr [.str "authorization_code", .str "refresh_token"]), ("essential", .bool true)])]), .obj [("grant_types", .arr [.str "password"])], .obj [("grant_types", .arr [.str "authorization_code", .str "refresh_token"])], false⟩,
  ⟨484, .obj [("grant_types", .obj [("add", .arr [])])], .obj [("grant_types", .obj [("value", .arr [.str "authorization_code", .str "refresh_token"]), ("essential", .bool true)])], some (.obj [("grant_types", .obj [("add", .arr []), ("value", .arr [.str "authorization_code", .str "refresh_token"]), ("essential", .bool true)])]), .obj [("grant_types", .arr [.str "password"])], .obj [("grant_types", .arr [.str "authorization_code", .str "refresh_token"])], false⟩,
  ⟨485, .obj [("grant_types", .obj [("add", .arr [])])], .obj [("grant_types", .obj [("value", .arr [.str "authorization_code", .str "refresh_token"])])], some (.obj [("grant_types", .obj [("add", .arr []), ("value", .arr [.str "authorization_code", .str "refresh_token"])])]), .obj [("grant_types", .arr [.str "password"])], .obj [("grant_types", .arr [.str "authorization_code", .str "refresh_token"])], false⟩,
  ⟨486, .obj [("grant_types", .obj [("add", .arr []), ("essential", .bool true)])], .obj [("grant_types", .obj [("value", .arr [.str "authorization_code", .str "refresh_token"]), ("essential", .bool true)])], some (.obj [("grant_types", .obj [("add", .arr []), ("value", .arr [.str "authorization_code", .str "refresh_token"]), ("essential", .bool true)])]), .obj [("grant_types", .arr [.str "authorization_code", .str "refresh_token"])], .obj [("grant_types", .arr [.str "authorization_code", .str "refresh_token"])], false⟩,
  ⟨487, .obj [("grant_types", .obj [("add", .arr []), ("essential", .bool true)])], .obj [("grant_types", .obj [("value", .arr [.str "authorization_code", .str "refresh_token"])])], some (.obj [("grant_types", .obj [("add", .arr []), ("value", .arr [.str "authorization_code", .str "refresh_token"]), ("essential", .bool true)])]), .obj [("grant_types", .arr [.str "authorization_code", .str "refresh_token"])], .obj [("grant_types", .arr [.str "authorization_code", .str "refresh_token"])], false⟩,
  ⟨488, .obj [("grant_types", .obj [("add", .arr [])])], .obj [("grant_types", .obj [("value", .arr [.str "authorization_code", .str "refresh_token"]), ("essential", .bool true)])], some (.obj [("grant_types", .obj [("add", .arr []), ("value", .arr [.str "authorization_code", .str "refresh_token"]), ("essential", .bool true)])]), .obj [("grant_types", .arr [.str "authorization_code", .str "refresh_token"])], .obj [("grant_types", .arr [.str "authorization_code", .str "refresh_token"])], false⟩,
  ⟨489, .obj [("grant_types", .obj [("add", .arr [])])], .obj [("grant_types", .obj [("value", .arr [.str "authorization_code", .str "refresh_token"])])], some (.obj [("grant_types", .obj [("add", .arr []), ("value", .arr [.str "authorization_code", .str "refresh_token"])])]), .obj [("grant_types", .arr [.str "authorization_code", .str "refresh_token"])], .obj [("grant_types", .arr [.str "authorization_code", .str "refresh_token"])], false⟩,
  ⟨490, .obj [("grant_types", .obj [("add", .arr []), ("essential", .bool true)])], .obj [("grant_types", .obj [("value", .arr [.str "authorization_code", .str "refresh_token"]), ("essential", .bool true)])], some (.obj [("grant_types", .obj [("add", .arr []), ("value", .arr [.str "authorization_code", .str "refresh_token"]), ("essential", .bool true)])]), .obj [("grant_types", .arr [.str "authorization_code", .str "password"])], .obj [("grant_types", .arr [.str "authorization_code", .str "refresh_token"])], false⟩,
  ⟨491, .obj [("grant_types", .obj [("add", .arr []), ("essential", .bool true)])], .obj [("grant_types", .obj [("value", .arr [.str "authorization_code", .str "refresh_token"])])], some (.obj [("grant_types", .obj [("add", .arr []), ("value", .arr [.str "authorization_code", .str "refresh_token"]), ("essential", .bool true)])]), .obj [("grant_types", .arr [.str "authorization_code", .str "password"])], .obj [("grant_types", .arr [.str "authorization_code", .str "refresh_token"])], false⟩,
  ⟨492, .obj [("grant_types", .obj [("add", .arr [])])], .obj [("grant_types", .obj [("value", .arr [.str "authorization_code", .str "refresh_token"]), ("essential", .bool true)])], some (.obj [("grant_types", .obj [("add", .arr []), ("value", .arr [.str "authorization_code", .str "refresh_token"]), ("essential", .bool true)])]), .obj [("grant_types", .arr [.str "authorization_code", .str "password"])], .obj [("grant_types", .arr [.str "authorization_code", .str "refresh_token"])], false⟩,
  ⟨493, .obj [("grant_types", .obj [("add", .arr [])])], .obj [("grant_types", .obj [("value", .arr [.str "authorization_code", .str "refresh_token"])])], some (.obj [("grant_types", .obj [("add", .arr []), ("value", .arr [.str "authorization_code", .str "refresh_token"])])]), .obj [("grant_types", .arr [.str "authorization_code", .str "password"])], .obj [("grant_types", .arr [.str "authorization_code", .str "refresh_token"])], false⟩,
  ⟨494, .obj [("grant_types", .obj [("add", .arr []), ("essential", .bool true)])], .obj [("grant_types", .obj [("value", .arr [.str "authorization_code", .str "refresh_token"]), ("essential", .bool true)])], some (.obj [("grant_types", .obj [("add", .arr []), ("value", .arr [.str "authorization_code", .str "refresh_token"]), ("essential", .bool true)])]), .obj [("grant_types", .arr [])], .obj [("grant_types", .arr [.str "authorization_code", .str "refresh_token"])], false⟩,
  ⟨495, .obj [("grant_types", .obj [("add", .arr []), ("essential", .bool true)])], .obj [("grant_types", .obj [("value", .arr [.str "authorization_code", .str "refresh_token"])])], some (.obj [("grant_types", .obj [("add", .arr []), ("value", .arr [.str "authorization_code", .str "refresh_token"]), ("essential", .bool true)])]), .obj [("grant_types", .arr [])], .obj [("grant_types", .arr [.str "authorization_code", .str "refresh_token"])], false⟩,
  ⟨496, .obj [("grant_types", .obj [("add", .arr [])])], .obj [("grant_types", .obj [("value", .arr [.str "authorization_code", .str "refresh_token"]), ("essential", .bool true)])], some (.obj [("grant_types", .obj [("add", .arr []), ("value", .arr [.str "authorization_code", .str "refresh_token"]), ("essential", .bool true)])]), .obj [("grant_types", .arr [])], .obj [("grant_types", .arr [.str "authorization_code", .str "refresh_token"])], false⟩,
  ⟨497, .obj [("grant_types", .obj [("add", .arr [])])], .obj [("grant_types", .obj [("value", .arr [.str "authorization_code", .str "refresh_token"])])], some (.obj [("grant_types", .obj [("add", .arr []), ("value", .arr [.str "authorization_code", .str "refresh_token"])])]), .obj [("grant_types", .arr [])], .obj [("grant_types", .arr [.str "authorization_code", .str "refresh_token"])], false⟩,
  ⟨498, .obj [("grant_types", .obj [("add", .arr []), ("essential", .bool true)])], .obj [("grant_types", .obj [("value", .arr [.str "authorization_code", .str "refresh_token"]), ("essential", .bool true)])], some (.obj [("grant_types", .obj [("add", .arr []), ("value", .arr [.str "authorization_code", .str "refresh_token"]), ("essential", .bool true)])]), .obj [], .obj [("grant_types", .arr [.str "authorization_code", .str "refresh_token"])], false⟩,
  ⟨499, .obj [("grant_types", .obj [("add", .arr []), ("essential", .bool true)])], .obj [("grant_types", .obj [("value", .arr [.str "authorization_code", .str "refresh_token"])])], some (.obj [("grant_types", .obj [("add", .arr []), ("value", .arr [.str "authorization_code", .str "refresh_token"]), ("essential", .bool true)])]), .obj [], .obj [("grant_types", .arr [.str "authorization_code", .str "refresh_token"])], false⟩,
  ⟨500, .obj [("grant_types", .obj [("add", .arr [])])], .obj [("grant_types", .obj [("value", .arr [.str "authorization_code", .str "refresh_token"]), ("essential", .bool true)])], some (.obj [("grant_types", .obj [("add", .arr []), ("value", .arr [.str "authorization_code", .str "refresh_token"]), ("essential", .bool true)])]), .obj [], .obj [("grant_types", .arr [.str "authorization_code", .str "refresh_token"])], false⟩,
  ⟨501, .obj [("grant_types", .obj [("add", .arr [])])], .obj [("grant_types", .obj [("value", .arr [.str "authorization_code", .str "refresh_token"])])], some (.obj [("grant_types", .obj [("add", .arr []), ("value", .arr [.str "authorization_code", .str "refresh_token"])])]), .obj [], .obj [("grant_types", .arr [.str "authorization_code", .str "refresh_token"])], false⟩,
  ⟨502, .obj [("grant_types", .obj [("add", .arr [.str "authorization_code"]), ("essential", .bool true)])], .obj [("grant_types", .obj [("value", .arr [.str "authorization_code", .str "refresh_token"]), ("essential", .bool true)])], some (.obj [("grant_types", .obj [("add", .arr [.str "authorization_code"]), ("value", .arr [.str "authorization_code", .str "refresh_token"]), ("essential", .bool true)])]), .obj [("grant_types", .arr [.str "authorization_code"])], .obj [("grant_types", .arr [.str "authorization_code", .str "refresh_token"])], false⟩,
  ⟨503, .obj [("grant_types", .obj [("add", .arr [.str "authorization_code"]), ("essential", .bool true)])], .obj [("grant_types", .obj [("value", .arr [.str "authorization_code", .str "refresh_token"])])], some (.obj [("grant_types", .obj [("add", .arr [.str "authorization_code"]), ("value", .arr [.str "authorization_code", .str "refresh_token"]), ("essential", .bool true)])]), .obj [("grant_types", .arr [.str "authorization_code"])], .obj [("grant_types", .arr [.str "authorization_code", .str "refresh_token"])], false⟩,
  ⟨504, .obj [("grant_types", .obj [("add", .arr [.str "authorization_code"])])], .obj [("grant_types", .obj [("value", .arr [.str "authorization_code", .str "refresh_token"]), ("essential", .bool true)])], some (.obj [("grant_types", .obj [("add", .arr [.str "authorization_code"]), ("value", .arr [.str "authorization_code", .str "refresh_token"]), ("essential", .bool true)])]), .obj [("grant_types", .arr [.str "authorization_code"])], .obj [("grant_types", .arr [.str "authorization_code", .str "refresh_token"])], false⟩,
  ⟨505, .obj [("grant_types", .obj [("add", .arr [.str "authorization_code"])])], .obj [("grant_types", .obj [("value", .arr [.str "authorization_code", .str "refresh_token"])])], some (.obj [("grant_types", .obj [("add", .arr [.str "authorization_code"]), ("value", .arr [.str "authorization_code", .str "refresh_token"])])]), .obj [("grant_types", .arr [.str "authorization_code"])], .obj [("grant_types", .arr [.str "authorization_code", .str "refresh_token"])], false⟩,
  ⟨506, .obj [("grant_types", .obj [("add", .arr [.str "authorization_code"]), ("essential", .bool true)])], .obj [("grant_types", .obj [("value", .arr [.str "authorization_code", .str "refresh_token"]), ("essential", .bool true)])], some (.obj [("grant_types", .obj [("add", .arr [.str "authorization_code"]), ("value", .arr [.str "authorization_code", .str "refresh_token"]), ("essential", .bool true)])]), .obj [("grant_types", .arr [.str "password"])], .obj [("grant_types", .arr [.str "authorization_code", .str "refresh_token"])], false⟩,
  ⟨507, .obj [("grant_types", .obj [("add", .arr [.str "authorization_code"]), ("essential", .bool true)])], .obj [("grant_types", .obj [("value", .arr [.str "authorization_code", .str "refresh_token"])])], some (.obj [("grant_types", .obj [("add", .arr [.str "authorization_code"]), ("value", .arr [.str "authorization_code", .str "refresh_token"]), ("essential", .bool true)])]), .obj [("grant_types", .arr [.str "password"])], .obj [("grant_types", .arr [.str "authorization_code", .str "refresh_token"])], false⟩,
  ⟨508, .obj [("grant_types", .obj [("add", .arr [.str "authorization_code"])])], .obj [("grant_types", .obj [("value", .arr [.str "authorization_code", .str "refresh_token"]), ("essential", .bool true)])], some (.obj [("grant_types", .obj [("add", .arr [.str "authorization_code"]), ("value", .arr [.str "authorization_code", .str "refresh_token"]), ("essential", .bool true)])]), .obj [("grant_types", .arr [.str "password"])], .obj [("grant_types", .arr [.str "authorization_code", .str "refresh_token"])], false⟩,
  ⟨509, .obj [("grant_types", .obj [("add", .arr [.str "authorization_code"])])], .obj [("grant_types", .obj [("value", .arr [.str "authorization_code", .str "refresh_token"])])], some (.obj [("grant_types", .obj [("add", .arr [.str "authorization_code"]), ("value", .arr [.str "authorization_code", .str "refresh_token"])])]), .obj [("grant_types", .arr [.str "password"])], .obj [("grant_types", .arr [.str "authorization_code", .str "refresh_token"])], false⟩,
  ⟨510, .obj [("grant_types", .obj [("add", .arr [.str "authorization_code"]), ("essential", .bool true)])], .obj [("grant_types", .obj [("value", .arr [.str "authorization_code", .str "refresh_token"]), ("essential", .bool true)])], some (.obj [("grant_types", .obj [("add", .arr [.str "authorization_code"]), ("value", .arr [.str "authorization_code", .str "refresh_token"]), ("essential", .bool true)])]), .obj [("grant_types", .arr [.str "authorization_code", .str "refresh_token"])], .obj [("grant_types", .arr [.str "authorization_code", .str "refresh_token"])], false⟩,
  ⟨511, .obj [("grant_types", .obj [("add", .arr [.str "authorization_code"]), ("essential", .bool true)])], .obj [("grant_types", .obj [("value", .arr [.str "authorization_code", .str "refresh_token"])])], some (.obj [("grant_types", .obj [("add", .arr [.str "authorization_code"]), ("value", .arr [.str "authorization_code", .str "refresh_token"]), ("essential", .bool true)])]), .obj [("grant_types", .arr [.str "authorization_code", .str "refresh_token"])], .obj [("grant_types", .arr [.str "authorization_code", .str "refresh_token"])], false⟩,
  ⟨512, .obj [("grant_types", .obj [("add", .arr [.str "authorization_code"])])], .obj [("grant_types", .obj [("value", .arr [.str "authorization_code", .str "refresh_token"]), ("essential", .bool true)])], some (.obj [("grant_types", .obj [("add", .arr [.str "authorization_code"]), ("value", .arr [.str "authorization_code", .str "refresh_token"]), ("essential", .bool true)])]), .obj [("grant_types", .arr [.str "authorization_code", .str "refresh_token"])], .obj [("grant_types", .arr [.str "authorization_code", .str "refresh_token"])], false⟩,
  ⟨513, .obj [("grant_types", .obj [("add", .arr [.str "authorization_code"])])], .obj [("grant_types", .obj [("value", .arr [.str "authorization_code", .str "refresh_token"])])], some (.obj [("grant_types", .obj [("add", .arr [.str "authorization_code"]), ("value", .arr [.str "authorization_code", .str "refresh_token"])])]), .obj [("grant_types", .arr [.str "authorization_code", .str "refresh_token"])], .obj [("grant_types", .arr [.str "authorization_code", .str "refresh_token"])], false⟩,
  ⟨514, .obj [("grant_types", .obj [("add", .arr [.str "authorization_code"]), ("essential", .bool true)])], .obj [("grant_types", .obj [("value", .arr [.str "authorization_code", .str "refresh_token"]), ("essential", .bool true)])], some (.obj [("grant_types", .obj [("add", .arr [.str "authorization_code"]), ("value", .arr [.str "authorization_code", .str "refresh_token"]), ("essential", .bool true)])]), .obj [("grant_types", .arr [.str "authorization_code", .str "password"])], .obj [("grant_types", .arr [.str "authorization_code", .str "refresh_token"])], false⟩,
  ⟨515, .obj [("grant_types", .obj [("add", .arr [.str "authorization_code"]), ("essential", .bool true)])], .obj [("grant_types", .obj [("value", .arr [.str "authorization_code", .str "refresh_token"])])], some (.obj [("grant_types", .obj [("add", .arr [.str "authorization_code"]), ("value", .arr [.str "authorization_code", .str "refresh_token"]), ("essential", .bool true)])]), .obj [("grant_types", .arr [.str "authorization_code", .str "password"])], .obj [("grant_types", .arr [.str "authorization_code", .str "refresh_token"])], false⟩,
  ⟨516, .obj [("grant_types", .obj [("add", .arr [.str "authorization_code"])])], .obj [("grant_types", .obj [("value", .arr [.str "authorization_code", .str "refresh_token"]), ("essential", .bool true)])], some (.obj [("grant_types", .obj [("add", .arr [.str "authorization_code"]), ("value", .arr [.str "authorization_code", .str "refresh_token"]), ("essential", .bool true)])]), .obj [("grant_types", .arr [.str "authorization_code", .str "password"])], .obj [("grant_types", .arr [.str "authorization_code", .str "refresh_token"])], false⟩,
  ⟨517, .obj [("grant_types", .obj [("add", .arr [.str "authorization_code"])])], .obj [("grant_types", .obj [("value", .arr [.str "authorization_code", .str "refresh_token"])])], some (.obj [("grant_types", .obj [("add", .arr [.str "authorization_code"]), ("value", .arr [.str "authorization_code", .str "refresh_token"])])]), .obj [("grant_types", .arr [.str "authorization_code", .str "password"])], .obj [("grant_types", .arr [.str "authorization_code", .str "refresh_token"])], false⟩,
  ⟨518, .obj [("grant_types", .obj [("add", .arr [.str "authorization_code"]), ("essential", .bool true)])], .obj [("grant_types", .obj [("value", .arr [.str "authorization_code", .str "refresh_token"]), ("essential", .bool true)])], some (.obj [("grant_types", .obj [("add", .arr [.str "authorization_code"]), ("value", .arr [.str "authorization_code", .str "refresh_token"]), ("essential", .bool true)])]), .obj [("grant_types", .arr [])], .obj [("grant_types", .arr [.str "authorization_code", .str "refresh_token"])], false⟩,
  ⟨519, .obj [("grant_types", .obj [("add", .arr [.str "authorization_code"]), ("essential", .bool true)])], .obj [("grant_types", .obj [("value", .arr [.str "authorization_code", .str "refresh_token"])])], some (.obj [("grant_types", .obj [("add", .arr [.str "authorization_code"]), ("value", .arr [.str "authorization_code", .str "refresh_token"]), ("essential", .bool true)])]), .obj [("grant_types", .arr [])], .obj [("grant_types", .arr [.str "authorization_code", .str "refresh_token"])], false⟩,
  ⟨520, .obj [("grant_types", .obj [("add", .arr [.str "authorization_code"])])], .obj [("grant_types", .obj [("value", .arr [.str "authorization_code", .str "refresh_token"]), ("essential", .bool true)])], some (.obj [("grant_types", .obj [("add", .arr [.str "authorization_code"]), ("value", .arr [.str "authorization_code", .str "refresh_token"]), ("essential", .bool true)])]), .obj [("grant_types", .arr [])], .obj [("grant_types", .arr [.str "authorization_code", .str "refresh_token"])], false⟩,
  ⟨521, .obj [("grant_types", .obj [("add", .arr [.str "authorization_code"])])], .obj [("grant_types", .obj [("value", .arr [.str "authorization_code", .str "refresh_token"])])], some (.obj [("grant_types", .obj [("add", .arr [.str "authorization_code"]), ("value", .arr [.str "authorization_code", .str "refresh_token"])])]), .obj [("grant_types", .arr [])], .obj [("grant_types", .arr [.str "authorization_code", .str "refresh_token"])], false⟩,
  ⟨522, .obj [("grant_types", .obj [("add", .arr [.str "authorization_code"]), ("essential", .bool true)])], .obj [("grant_types", .obj [("value", .arr [.str "authorization_code", .str "refresh_token"]), ("essential", .bool true)])], some (.obj [("grant_types", .obj [("add", .arr [.str "authorization_code"]), ("value", .arr [.str "authorization_code", .str "refresh_token"]), ("essential", .bool true)])]), .obj [], .obj [("grant_types", .arr [.str "authorization_code", .str "refresh_token"])], false⟩,
  ⟨523, .obj [("grant_types", .obj [("add", .arr [.str "authorization_code"]), ("essential", .bool true)])], .obj [("grant_types", .obj [("value", .arr [.str "authorization_code", .str "refresh_token"])])], some (.obj [("grant_types", .obj [("add", .arr [.str "authorization_code"]), ("value", .arr [.str "authorization_code", .str "refresh_token"]), ("essential", .bool true)])]), .obj [], .obj [("grant_types", .arr [.str "authorization_code", .str "refresh_token"])], false⟩,
  ⟨524, .obj [("grant_types", .obj [("add", .arr [.str "authorization_code"])])], .obj [("grant_types", .obj [("value", .arr [.str "authorization_code", .str "refresh_token"]), ("essential", .bool true)])], some (.obj [("grant_types", .obj [("add", .arr [.str "authorization_code"]), ("value", .arr [.str "authorization_code", .str "refresh_token"]), ("essential", .bool true)])]), .obj [], .obj [("grant_types", .arr [.str "authorization_code", .str "refresh_token"])], false⟩,
  ⟨525, .obj [("grant_types", .obj [("add", .arr [.str "authorization_code"])])], .obj [("grant_types", .obj [("value", .arr [.str "authorization_code", .str "refresh_token"])])], some (.obj [("grant_types", .obj [("add", .arr [.str "authorization_code"]), ("value", .arr [.str "authorization_code", .str "refresh_token"])])]), .obj [], .obj [("grant_types", .arr [.str "authorization_code", .str "refresh_token"])], false⟩,
  ⟨526, .obj [("grant_types", .obj [("add", .arr []), ("essential", .bool true)])], .obj [("grant_types", .obj [("add", .arr [.str "authorization_code"]), ("essential", .bool true)])], some (.obj [("grant_types", .obj [("add", .arr [.str "authorization_code"]), ("essential", .bool true)])]), .obj [("grant_types", .arr [.str "authorization_code"])], .obj [("grant_types", .arr [.str "authorization_code"])], false⟩,
  ⟨527, .obj [("grant_types", .obj [("add", .arr []), ("essential", .bool true)])], .obj [("grant_types", .obj [("add", .arr [.str "authorization_code"])])], some (.obj [("grant_types", .obj [("add", .arr [.str "authorization_code"]), ("essential", .bool true)])]), .obj [("grant_types", .arr [.str "authorization_code"])], .obj [("grant_types", .arr [.str "authorization_code"])], false⟩,
  ⟨528, .obj [("grant_types", .obj [("add", .arr [])])], .obj [("grant_types", .obj [("add", .arr [.str "authorization_code"]), ("essential", .bool true)])], some (.obj [("grant_types", .obj [("add", .arr [.str "authorization_code"]), ("essential", .bool true)])]), .obj [("grant_types", .arr [.str "authorization_code"])], .obj [("grant_types", .arr [.str "authorization_code"])], false⟩,
  ⟨529, .obj [("grant_types", .obj [("add", .arr [])])], .obj [("grant_types", .obj [("add", .arr [.str "authorization_code"])])], some (.obj [("grant_types", .obj [("add", .arr [.str "authorization_code"])])]), .obj [("grant_types", .arr [.str "authorization_code"])], .obj [("grant_types", .arr [.str "authorization_code"])], false⟩,
  ⟨530, .obj [("grant_types", .obj [("add", .arr []), ("essential", .bool true)])], .obj [("grant_types", .obj [("add", .arr [.str "authorization_code"]), ("essential", .bool true)])], some (.obj [("grant_types", .obj [("add", .arr [.str "authorization_code"]), ("essential", .bool true)])]), .obj [("grant_types", .arr [.str "password"])], .obj [("grant_types", .arr [.str "password", .str "authorization_code"])], false⟩,
  ⟨531, .obj [("grant_types", .obj [("add", .arr []), ("essential", .bool true)])], .obj [("grant_types", .obj [("add", .arr [.str "authorization_code"])])], some (.obj [("grant_types", .obj [("add", .arr [.str "authorization_code"]), ("essential", .bool true)])]), .obj [("grant_types", .arr [.str "password"])], .obj [("grant_types", .arr [.str "password", .str "authorization_code"])], false⟩,
  ⟨532, .obj [("grant_types", .obj [("add", .arr [])])], .obj [("grant_types", .obj [("add", .arr [.str "authorization_code"]), ("essential", .bool true)])], some (.obj [("grant_types", .obj [("add", .arr [.str "authorization_code"]), ("essential", .bool true)])]), .obj [("grant_types", .arr [.str "password"])], .obj [("grant_types", .arr [.str "password", .str "authorization_code"])], false⟩,
  ⟨533, .obj [("grant_types", .obj [("add", .arr [])])], .obj [("grant_types", .obj [("add", .arr [.str "authorization_code"])])], some (.obj [("grant_types", .obj [("add", .arr [.str "authorization_code"])])]), .obj [("grant_types", .arr [.str "password"])], .obj [("grant_types", .arr [.str "password", .str "authorization_code"])], false⟩,
  ⟨534, .obj [("grant_types", .obj [("add", .arr []), ("essential", .bool true)])], .obj [("grant_types", .obj [("add", .arr [.str "authorization_code"]), ("essential", .bool true)])], some (.obj [("grant_types", .obj [("add", .arr [.str "authorization_code"]), ("essential", .bool true)])]), .obj [("grant_types", .arr [.str "authorization_code", .str "refresh_token"])], .obj [("grant_types", .arr [.str "authorization_code", .str "refresh_token"])], false⟩,
  ⟨535, .obj [("grant_types", .obj [("add", .arr []), ("essential", .bool true)])], .obj [("grant_types", .obj [("add", .arr [.str "authorization_code"])])], some (.obj [("grant_types", .obj [("add", .arr [.str "authorization_code"]), ("essential", .bool true)])]), .obj [("grant_types", .arr [.str "authorization_code", .str "refresh_token"])], .obj [("grant_types", .arr [.str "authorization_code", .str "refresh_token"])], false⟩,
  ⟨536, .obj [("grant_types", .obj [("add", .arr [])])], .obj [("grant_types", .obj [("add", .arr [.str "authorization_code"]), ("essential", .bool true)])], some (.obj [("grant_types", .obj [("add", .arr [.str "authorization_code"]), ("essential", .bool true)])]), .obj [("grant_types", .arr [.str "authorization_code", .str "refresh_token"])], .obj [("grant_types", .arr [.str "authorization_code", .str "refresh_token"])], false⟩,
  ⟨537, .obj [("grant_types", .obj [("add", .arr [])])], .obj [("grant_types", .obj [("add", .arr [.str "authorization_code"])])], some (.obj [("grant_types", .obj [("add", .arr [.str "authorization_code"])])]), .obj [("grant_types", .arr [.str "authorization_code", .str "refresh_token"])], .obj [("grant_types", .arr [.str "authorization_code", .str "refresh_token"])], false⟩,
  ⟨538, .obj [("grant_types", .obj [("add", .arr []), ("essential", .bool true)])], .obj [("grant_types", .obj [("add", .arr [.str "authorization_code"]), ("essential", .bool true)])], some (.obj [("grant_types", .obj [("add", .arr [.str "authorization_code"]), ("essential", .bool true)])]), .obj [("grant_types", .arr [.str "authorization_code", .str "password"])], .obj [("grant_types", .arr [.str "authorization_code", .str "password"])], false⟩,
  ⟨539, .obj [("grant_types", .obj [("add", .arr []), ("essential", .bool true)])], .obj [("grant_types", .obj [("add", .arr [.str "authorization_code"])])], some (.obj [("grant_types", .obj [("add", .arr [.str "authorization_code"]), ("essential", .bool true)])]), .obj [("grant_types", .arr [.str "authorization_code", .str "password"])], .obj [("grant_types", .arr [.str "authorization_code", .str "password"])], false⟩,
  ⟨540, .obj [("grant_types", .obj [("add", .arr [])])], .obj [("grant_types", .obj [("add", .arr [.str "authorization_code"]), ("essential", .bool true)])], some (.obj [("grant_types", .obj [("add", .arr [.str "authorization_code"]), ("essential", .bool true)])]), .obj [("grant_types", .arr [.str "authorization_code", .str "password"])], .obj [("grant_types", .arr [.str "authorization_code", .str "password"])], false⟩,
  ⟨541, .obj [("grant_types", .obj [("add", .arr [])])], .obj [("grant_types", .obj [("add", .arr [.str "authorization_code"])])], some (.obj [("grant_types", .obj [("add", .arr [.str "authorization_code"])])]), .obj [("grant_types", .arr [.str "authorization_code", .str "password"])], .obj [("grant_types", .arr [.str "authorization_code", .str "password"])], false⟩,
  ⟨542, .obj [("grant_types", .obj [("add", .arr []), ("essential", .bool true)])], .obj [("grant_types", .obj [("add", .arr [.str "authorization_code"]), ("essential", .bool true)])], some (.obj [("grant_types", .obj [("add", .arr [.str "authorization_code"]), ("essential", .bool true)])]), .obj [("grant_types", .arr [])], .obj [("grant_types", .arr [.str "authorization_code"])], false⟩,
  ⟨543, .obj [("grant_types", .obj [("add", .arr []), ("essential", .bool true)])], .obj [("grant_types", .obj [("add", .arr [.str "authorization_code"])])], some (.obj [("grant_types", .obj [("add", .arr [.str "authorization_code"]), ("essential", .bool true)])]), .obj [("grant_types", .arr [])], .obj [("grant_types", .arr [.str "authorization_code"])], false⟩,
  ⟨544, .obj [("grant_types", .obj [("add", .arr [])])], .obj [("grant_types", .obj [("add", .arr [.str "authorization_code"]), ("essential", .bool true)])], some (.obj [("grant_types", .obj [("add", .arr [.str "authorization_code"]), ("essential", .bool true)])]), .obj [("grant_types", .arr [])], .obj [("grant_types", .arr [.str "authorization_code"])], false⟩,
  ⟨545, .obj [("grant_types", .obj [("add", .arr [])])], .obj [("grant_types", .obj [("add", .arr [.str "authorization_code"])])], some (.obj [("grant_types", .obj [("add", .arr [.str "authorization_code"])])]), .obj [("grant_types", .arr [])], .obj [("grant_types", .arr [.str "authorization_code"])], false⟩,
  ⟨546, .obj [("grant_types", .obj [("add", .arr []), ("essential", .bool true)])], .obj [("grant_types", .obj [("add", .arr [.str "authorization_code"]), ("essential", .bool true)])], some (.obj [("grant_types", .obj [("add", .arr [.str "authorization_code"]), ("essential", .bool true)])]), .obj [], .obj [("grant_types", .arr [.str "authorization_code"])], false⟩,
  ⟨547, .obj [("grant_types", .obj [("add", .arr []), ("essential", .bool true)])], .obj [("grant_types", .obj [("add", .arr [.str "authorization_code"])])], some (.obj [("grant_types", .obj [("add", .arr [.str "authorization_code"]), ("essential", .bool true)])]), .obj [], .obj [("grant_types", .arr [.str "authorization_code"])], false⟩,
  ⟨548, .obj [("grant_types", .obj [("add", .arr [])])], .obj [("grant_types", .obj [("add", .arr [.str "authorization_code"]), ("essential", .bool true)])], some (.obj [("grant_types", .obj [("add", .arr [.str "authorization_code"]), ("essential", .bool true)])]), .obj [], .obj [("grant_types", .arr [.str "authorization_code"])], false⟩,
  ⟨549, .obj [("grant_types", .obj [("add", .arr [])])], .obj [("grant_types", .obj [("add", .arr [.str "authorization_code"])])], some (.obj [("grant_types", .obj [("add", .arr [.str "authorization_code"])])]), .obj [], .obj [("grant_types", .arr [.str "authorization_code"])], false⟩,
  ⟨550, .obj [("grant_types", .obj [("add", .arr []), ("essential", .bool true)])], .obj [("grant_types", .obj [("add", .arr [.str "authorization_code", .str "refresh_token"]), ("essential", .bool true)])], some (.obj [("grant_types", .obj [("add", .arr [.str "authorization_code", .str "refresh_token"]), ("essential", .bool true)])]), .obj [("grant_types", .arr [.str "authorization_code"])], .obj [("grant_types", .arr [.str "authorization_code", .str "refresh_token"])], false⟩,
  ⟨551, .obj [("grant_types", .obj [("add", .arr []), ("essential", .bool true)])], .obj [("grant_types", .obj [("add", .arr [.str "authorization_code", .str "refresh_token"])])], some (.obj [("grant_types", .obj [("add", .arr [.str "authorization_code", .str "refresh_token"]), ("essential", .bool true)])]), .obj [("grant_types", .arr [.str "authorization_code"])], .obj [("grant_types", .arr [.str "authorization_code", .str "refresh_token"])], false⟩,
  ⟨552, .obj [("grant_types", .obj [("add", .arr [])])], .obj [("grant_types", .obj [("add", .arr [.str "authorization_code", .str "refresh_token"]), ("essential", .bool true)])], some (.obj [("grant_types", .obj [("add", .arr [.str "authorization_code", .str "refresh_token"]), ("essential", .bool true)])]), .obj [("grant_types", .arr [.str "authorization_code"])], .obj [("grant_types", .arr [.str "authorization_code", .str "refresh_token"])], false⟩,
  ⟨553, .obj [("grant_types", .obj [("add", .arr [])])], .obj [("grant_types", .obj [("add", .arr [.str "authorization_code", .str "refresh_token"])])], some (.obj [("grant_types", .obj [("add", .arr [.str "authorization_code", .str "refresh_token"])])]), .obj [("grant_types", .arr [.str "authorization_code"])], .obj [("grant_types", .arr [.str "authorization_code", .str "refresh_token"])], false⟩,
  ⟨554, .obj [("grant_types", .obj [("add", .arr []), ("essential", .bool true)])], .obj [("grant_types", .obj [("add", .arr [.str "authorization_code", .str "refresh_token"]), ("essential", .bool true)])], some (.obj [("grant_types", .obj [("add", .arr [.str "authorization_code", .str "refresh_token"]), ("essential", .bool true)])]), .obj [("grant_types", .arr [.str "password"])], .obj [("grant_types", .arr [.str "password", .str "authorization_code", .str "refresh_token"])], false⟩,
  ⟨555, .obj [("grant_types", .obj [("add", .arr []), ("essential", .bool true)])], .obj [("grant_types", .obj [("add", .arr [.str "authorization_code", .str "refresh_token"])])], some (.obj [("grant_types", .obj [("add", .arr [.str "authorization_code", .str "refresh_token"]), ("essential", .bool true)])]), .obj [("grant_types", .arr [.str "password"])], .obj [("grant_types", .arr [.str "password", .str "authorization_code", .str "refresh_token"])], false⟩,
  ⟨556, .obj [("grant_types", .obj [("add", .arr [])])], .obj [("grant_types", .obj [("add", .arr [.str "authorization_code", .str "refresh_token"]), ("essential", .bool true)])], some (.obj [("grant_types", .obj [("add", .arr [.str "authorization_code", .str "refresh_token"]), ("essential", .bool true)])]), .obj [("grant_types", .arr [.str "password"])], .obj [("grant_types", .arr [.str "password", .str "authorization_code", .str "refresh_token"])], false⟩,
  ⟨557, .obj [("grant_types", .obj [("add", .arr [])])], .obj [("grant_types", .obj [("add", .arr [.str "authorization_code", .str "refresh_token"])])], some (.obj [("grant_types", .obj [("add", .arr [.str "authorization_code", .str "refresh_token"])])]), .obj [("grant_types", .arr [.str "password"])], .obj [("grant_types", .arr [.str "password", .str "authorization_code", .str "refresh_token"])], false⟩,
  ⟨558, .obj [("grant_types", .obj [("add", .arr []), ("essential", .bool true)])], .obj [("grant_types", .obj [("add", .arr [.str "authorization_code", .str "refresh_token"]), ("essential", .bool true)])], some (.obj [("grant_types", .obj [("add", .arr [.str "authorization_code", .str "refresh_token"]), ("essential", .bool true)])]), .obj [("grant_types", .arr [.str "authorization_code", .str "refresh_token"])], .obj [("grant_types", .arr [.str "authorization_code", .str "refresh_token"])], false⟩,
  ⟨559, .obj [("grant_types", .obj [("add", .arr []), ("essential", .bool true)])], .obj [("grant_types", .obj [("add", .arr [.str "authorization_code", .str "refresh_token"])])], some (.obj [("grant_types", .obj [("add", .arr [.str "authorization_code", .str "refresh_token"]), ("essential", .bool true)])]), .obj [("grant_types", .arr [.str "authorization_code", .str "refresh_token"])], .obj [("grant_types", .arr [.str "authorization_code", .str "refresh_token"])], false⟩,
  ⟨560, .obj [("grant_types", .obj [("add", .arr [])])], .obj [("grant_types", .obj [("add", .arr [.str "authorization_code", .str "refresh_token"]), ("essential", .bool true)])], some (.obj [("grant_types", .obj [("add", .arr [.str "authorization_code", .str "refresh_token"]), ("essential", .bool true)])]), .obj [("grant_types", .arr [.str "authorization_code", .str "refresh_token"])], .obj [("grant_types", .arr [.str "authorization_code", .str "refresh_token"])], false⟩,
  ⟨561, .obj [("grant_types", .obj [("add", .arr [])])], .obj [("grant_types", .obj [("add", .arr [.str "authorization_code", .str "refresh_token"])])], some (.obj [("grant_types", .obj [("add", .arr [.str "authorization_code", .str "refresh_token"])])]), .obj [("grant_types", .arr [.str "authorization_code", .str "refresh_token"])], .obj [("grant_types", .arr [.str "authorization_code", .str "refresh_token"])], false⟩,
  ⟨562, .obj [("grant_types", .obj [("add", .arr []), ("essential", .bool true)])], .obj [("grant_types", .obj [("add", .arr [.str "authorization_code", .str "refresh_token"]), ("essential", .bool true)])], some (.obj [("grant_types", .obj [("add", .arr [.str "authorization_code", .str "refresh_token"]), ("essential", .bool true)])]), .obj [("grant_types", .arr [.str "authorization_code", .str "password"])], .obj [("grant_types", .arr [.str "authorization_code", .str "password", .str "refresh_token"])], false⟩,
  ⟨563, .obj [("grant_types", .obj [("add", .arr []), ("essential", .bool true)])], .obj [("grant_types", .obj [("add", .arr [.str "authorization_code", .str "refresh_token"])])], some (.obj [("grant_types", .obj [("add", .arr [.str "authorization_code", .str "refresh_token"]), ("essential", .bool true)])]), .obj [("grant_types", .arr [.str "authorization_code", .str "password"])], .obj [("grant_types", .arr [.str "authorization_code", .str "password", .str "refresh_token"])], false⟩,
  ⟨564, .obj [("grant_types", .obj [("add", .arr [])])], .obj [("grant_types", .obj [("add", .arr [.str "authorization_code", .str "refresh_token"]), ("essential", .bool true)])], some (.obj [("grant_types", .obj [("add", .arr [.str "authorization_code", .str "refresh_token"]), ("essential", .bool true)])]), .obj [("grant_types", .arr [.str "authorization_code", .str "password"])], .obj [("grant_types", .arr [.str "authorization_code", .str "password", .str "refresh_token"])], false⟩,
  ⟨565, .obj [("grant_types", .obj [("add", .arr [])])], .obj [("grant_types", .obj [("add", .arr [.str "authorization_code", .str "refresh_token"])])], some (.obj [("grant_types", .obj [("add", .arr [.str "authorization_code", .str "refresh_token"])])]), .obj [("grant_types", .arr [.str "authorization_code", .str "password"])], .obj [("grant_types", .arr [.str "authorization_code", .str "password", .str "refresh_token"])], false⟩,
  ⟨566, .obj [("grant_types", .obj [("add", .arr []), ("essential", .bool true)])], .obj [("grant_types", .obj [("add", .arr [.str "authorization_code", .str "refresh_token"]), ("essential", .bool true)])], some (.obj [("grant_types", .obj [("add", .arr [.str "authorization_code", .str "refresh_token"]), ("essential", .bool true)])]), .obj [("grant_types", .arr [])], .obj [("grant_types", .arr [.str "authorization_code", .str "refresh_token"])], false⟩,
  ⟨567, .obj [("grant_types", .obj [("add", .arr []), ("essential", .bool true)])], .obj [("grant_types", .obj [("add", .arr [.str "authorization_code", .str "refresh_token"])])], some (.obj [("grant_types", .obj [("add", .arr [.str "authorization_code", .str "refresh_token"]), ("essential", .bool true)])]), .obj [("grant_types", .arr [])], .obj [("grant_types", .arr [.str "authorization_code", .str "refresh_token"])], false⟩,
  ⟨568, .obj [("grant_types", .obj [("add", .arr [])])], .obj [("grant_types", .obj [("add", .arr [.str "authorization_code", .str "refresh_token"]), ("essential", .bool true)])], some (.obj [("grant_types", .obj [("add", .arr [.str "authorization_code", .str "refresh_token"]), ("essential", .bool true)])]), .obj [("grant_types", .arr [])], .obj [("grant_types", .arr [.str "authorization_code", .str "refresh_token"])], false⟩,
  ⟨569, .obj [("grant_types", .obj [("add", .arr [])])], .obj [("grant_types", .obj [("add", .arr [.str "authorization_code", .str "refresh_token"])])], some (.obj [("grant_types", .obj [("add", .arr [.str "authorization_code", .str "refresh_token"])])]), .obj [("grant_types", .arr [])], .obj [("grant_types", .arr [.str "authorization_code", .str "refresh_token"])], false⟩,
  ⟨570, .obj [("grant_types", .obj [("add", .arr []), ("essential", .bool true)])], .obj [("grant_types", .obj [("add", .arr [.str "authorization_code", .str "refresh_token"]), ("essential", .bool true)])], some (.obj [("grant_types", .obj [("add", .arr [.str "authorization_code", .str "refresh_token"]), ("essential", .bool true)])]), .obj [], .obj [("grant_types", .arr [.str "authorization_code", .str "refresh_token"])], false⟩,
  ⟨571, .obj [("grant_types", .obj [("add", .arr []), ("essential", .bool true)])], .obj [("grant_types", .obj [("add", .arr [.str "authorization_code", .str "refresh_token"])])], some (.obj [("grant_types", .obj [("add", .arr [.str "authorization_code", .str "refresh_token"]), ("essential", .bool true)])]), .obj [], .obj [("grant_types", .arr [.str "authorization_code", .str "refresh_token"])], false⟩,
  ⟨572, .obj [("grant_types", .obj [("add", .arr [])])], .obj [("grant_types", .obj [("add", .arr [.str "authorization_code", .str "refresh_token"]), ("essential", .bool true)])], some (.obj [("grant_types", .obj [("add", .arr [.str "authorization_code", .str "refresh_token"]), ("essential", .bool true)])]), .obj [], .obj [("grant_types", .arr [.str "authorization_code", .str "refresh_token"])], false⟩,
  ⟨573, .obj [("grant_types", .obj [("add", .arr [])])], .obj [("grant_types", .obj [("add", .arr [.str "authorization_code", .str "refresh_token"])])], some (.obj [("grant_types", .obj [("add", .arr [.str "authorization_code", .str "refresh_token"])])]), .obj [], .obj [("grant_types", .arr [.str "authorization_code", .str "refresh_token"])], false⟩,
  ⟨574, .obj [("grant_types", .obj [("add", .arr [.str "authorization_code"]), ("essential", .bool true)])], .obj [("grant_types", .obj [("add", .arr [.str "authorization_code", .str "refresh_token"]), ("essential", .bool true)])], some (.obj [("grant_types", .obj [("add", .arr [.str "authorization_code", .str "refresh_token"]), ("essential", .bool true)])]), .obj [("grant_types", .arr [.str "authorization_code"])], .obj [("grant_types", .arr [.str "authorization_code", .str "refresh_token"])], false⟩,
  ⟨575, .obj [("grant_types", .obj [("add", .arr [.str "authorization_code"]), ("essential", .bool true)])], .obj [("grant_types", .obj [("add", .arr [.str "authorization_code", .str "refresh_token"])])], some (.obj [("grant_types", .obj [("add", .arr [.str "authorization_code", .str "refresh_token"]), ("essential", .bool true)])]), .obj [("grant_types", .arr [.str "authorization_code"])], .obj [("grant_types", .arr [.str "authorization_code", .str "refresh_token"])], false⟩,
  ⟨576, .obj [("grant_types", .obj [("add", .arr [.str "authorization_code"])])], .obj [("grant_types", .obj [("add", .arr [.str "authorization_code", .str "refresh_token"]), ("essential", .bool true)])], some (.obj [("grant_types", .obj [("add", .arr [.str "authorization_code", .str "refresh_token"]), ("essential", .bool true)])]), .obj [("grant_types", .arr [.str "authorization_code"])], .obj [("grant_types", .arr [.str "authorization_code", .str "refresh_token"])], false⟩,
  ⟨577, .obj [("grant_types", .obj [("add", .arr [.str "authorization_code"])])], .obj [("grant_types", .obj [("add", .arr [.str "authorization_code", .str "refresh_token"])])], some (.obj [("grant_types", .obj [("add", .arr [.str "authorization_code", .str "refresh_token"])])]), .obj [("grant_types", .arr [.str "authorization_code"])], .obj [("grant_types", .arr [.str "authorization_code", .str "refresh_token"])], false⟩,
  ⟨578, .obj [("grant_types", .obj [("add", .arr [.str "authorization_code"]), ("essential", .bool true)])], .obj [("grant_types", .obj [("add", .arr [.str "authorization_code", .str "refresh_token"]), ("essential", .bool true)])], some (.obj [("grant_types", .obj [("add", .arr [.str "authorization_code", .str "refresh_token"]), ("essential", .bool true)])]), .obj [("grant_types", .arr [.str "password"])], .obj [("grant_types", .arr [.str "password", .str "authorization_code", .str "refresh_token"])], false⟩,
  ⟨579, .obj [("grant_types", .obj [("add", .arr [.str "authorization_code"]), ("essential", .bool true)])], .obj [("grant_types", .obj [("add", .arr [.str "authorization_code", .str "refresh_token"])])], some (.obj [("grant_types", .obj [("add", .arr [.str "authorization_code", .str "refresh_token"]), ("essential", .bool true)])]), .obj [("grant_types", .arr [.str "password"])], .obj [("grant_types", .arr [.str "password", .str "authorization_code", .str "refresh_token"])], false⟩,
  ⟨580, .obj [("grant_types", .obj [("add", .arr [.str "authorization_code"])])], .obj [("grant_types", .obj [("add", .arr [.str "authorization_code", .str "refresh_token"]), ("essential", .bool true)])], some (.obj [("grant_types", .obj [("add", .arr [.str "authorization_code", .str "refresh_token"]), ("essential", .bool true)])]), .obj [("grant_types", .arr [.str "password"])], .obj [("grant_types", .arr [.str "password", .str "authorization_code", .str "refresh_token"])], false⟩,
  ⟨581, .obj [("grant_types", .obj [("add", .arr [.str "authorization_code"])])], .obj [("grant_types", .obj [("add", .arr [.str "authorization_code", .str "refresh_token"])])], some (.obj [("grant_types", .obj [("add", .arr [.str "authorization_code", .str "refresh_token"])])]), .obj [("grant_types", .arr [.str "password"])], .obj [("grant_types", .arr [.str "password", .str "authorization_code", .str "refresh_token"])], false⟩,
  ⟨582, .obj [("grant_types", .obj [("add", .arr [.str "authorization_code"]), ("essential", .bool true)])], .obj [("grant_types", .obj [("add", .arr [.str "authorization_code", .str "refresh_token"]), ("essential", .bool true)])], some (.obj [("grant_types", .obj [("add", .arr [.str "authorization_code", .str "refresh_token"]), ("essential", .bool true)])]), .obj [("grant_types", .arr [.str "authorization_code", .str "refresh_token"])], .obj [("grant_types", .arr [.str "authorization_code", .str "refresh_token"])], false⟩,
  ⟨583, .obj [("grant_types", .obj [("add", .arr [.str "authorization_code"]), ("essential", .bool true)])], .obj [("grant_types", .obj [("add", .arr [.str "authorization_code", .str "refresh_token"])])], some (.obj [("grant_types", .obj [("add", .arr [.str "authorization_code", .str "refresh_token"]), ("essential", .bool true)])]), .obj [("grant_types", .arr [.str "authorization_code", .str "refresh_token"])], .obj [("grant_types", .arr [.str "authorization_code", .str "refresh_token"])], false⟩,
  ⟨584, .obj [("grant_types", .obj [("add", .arr [.str "authorization_code"])])], .obj [("grant_types", .obj [("add", .arr [.str "authorization_code", .str "refresh_token"]), ("essential", .bool true)])], some (.obj [("grant_types", .obj [("add", .arr [.str "authorization_code", .str "refresh_token"]), ("essential", .bool true)])]), .obj [("grant_types", .arr [.str "authorization_code", .str "refresh_token"])], .obj [("grant_types", .arr [.str "authorization_code", .str "refresh_token"])], false⟩,
  ⟨585, .obj [("grant_types", .obj [("add", .arr [.str "authorization_code"])])], .obj [("grant_types", .obj [("add", .arr [.str "authorization_code", .str "refresh_token"])])], some (.obj [("grant_types", .obj [("add", .arr [.str "authorization_code", .str "refresh_token"])])]), .obj [("grant_types", .arr [.str "authorization_code", .str "refresh_token"])], .obj [("grant_types", .arr [.str "authorization_code", .str "refresh_token"])], false⟩,
  ⟨586, .obj [("grant_types", .obj [("add", .arr [.str "authorization_code"]), ("essential", .bool true)])], .obj [("grant_types", .obj [("add", .arr [.str "authorization_code", .str "refresh_token"]), ("essential", .bool true)])], some (.obj [("grant_types", .obj [("add", .arr [.str "authorization_code", .str "refresh_token"]), ("essential", .bool true)])]), .obj [("grant_types", .arr [.str "authorization_code", .str "password"])], .obj [("grant_types", .arr [.str "authorization_code", .str "password", .str "refresh_token"])], false⟩,
  ⟨587, .obj [("grant_types", .obj [("add", .arr [.str "authorization_code"]), ("essential", .bool true)])], .obj [("grant_types", .obj [("add", .arr [.str "authorization_code", .str "refresh_token"])])], some (.obj [("grant_types", .obj [("add", .arr [.str "authorization_code", .str "refresh_token"]), ("essential", .bool true)])]), .obj [("grant_types", .arr [.str "authorization_code", .str "password"])], .obj [("grant_types", .arr [.str "authorization_code", .str "password", .str "refresh_token"])], false⟩,
  ⟨588, .obj [("grant_types", .obj [("add", .arr [.str "authorization_code"])])], .obj [("grant_types", .obj [("add", .arr [.str "authorization_code", .str "refresh_token"]), ("essential", .bool true)])], some (.obj [("grant_types", .obj [("add", .arr [.str "authorization_code", .str "refresh_token"]), ("essential", .bool true)])]), .obj [("grant_types", .arr [.str "authorization_code", .str "password"])], .obj [("grant_types", .arr [.str "authorization_code", .str "password", .str "refresh_token"])], false⟩,
  ⟨589, .obj [("grant_types", .obj [("add", .arr [.str "authorization_code"])])], .obj [("grant_types", .obj [("add", .arr [.str "authorization_code", .str "refresh_token"])])], some (.obj [("grant_types", .obj [("add", .arr [.str "authorization_code", .str "refresh_token"])])]), .obj [("grant_types", .arr [.str "authorization_code", .str "password"])], .obj [("grant_types", .arr [.str "authorization_code", .str "password", .str "refresh_token"])], false⟩,
  ⟨590, .obj [("grant_types", .obj [("add", .arr [.str "authorization_code"]), ("essential", .bool true)])], .obj [("grant_types", .obj [("add", .arr [.str "authorization_code", .str "refresh_token"]), ("essential", .bool true)])], some (.obj [("grant_types", .obj [("add", .arr [.str "authorization_code", .str "refresh_token"]), ("essential", .bool true)])]), .obj [("grant_types", .arr [])], .obj [("grant_types", .arr [.str "authorization_code", .str "refresh_token"])], false⟩,
  ⟨591, .obj [("grant_types", .obj [("add", .arr [.str "authorization_code"]), ("essential", .bool true)])], .obj [("grant_types", .obj [("add", .arr [.str "authorization_code", .str "refresh_token"])])], some (.obj [("grant_types", .obj [("add", .arr [.str "authorization_code", .str "refresh_token"]), ("essential", .bool true)])]), .obj [("grant_types", .arr [])], .obj [("grant_types", .arr [.str "authorization_code", .str "refresh_token"])], false⟩,
  ⟨592, .obj [("grant_types", .obj [("add", .arr [.str "authorization_code"])])], .obj [("grant_types", .obj [("add", .arr [.str "authorization_code", .str "refresh_token"]), ("essential", .bool true)])], some (.obj [("grant_types", .obj [("add", .arr [.str "authorization_code", .str "refresh_token"]), ("essential", .bool true)])]), .obj [("grant_types", .arr [])], .obj [("grant_types", .arr [.str "authorization_code", .str "refresh_token"])], false⟩,
  ⟨593, .obj [("grant_types", .obj [("add", .arr [.str "authorization_code"])])], .obj [("grant_types", .obj [("add", .arr [.str "authorization_code", .str "refresh_token"])])], some (.obj [("grant_types", .obj [("add", .arr [.str "authorization_code", .str "refresh_token"])])]), .obj [("grant_types", .arr [])], .obj [("grant_types", .arr [.str "authorization_code", .str "refresh_token"])], false⟩,
  ⟨594, .obj [("grant_types", .obj [("add", .arr [.str "authorization_code"]), ("essential", .bool true)])], .obj [("grant_types", .obj [("add", .arr [.str "authorization_code", .str "refresh_token"]), ("essential", .bool true)])], some (.obj [("grant_types", .obj [("add", .arr [.str "authorization_code", .str "refresh_token"]), ("essential", .bool true)])]), .obj [], .obj [("grant_types", .arr [.str "authorization_code", .str "refresh_token"])], false⟩,
  ⟨595, .obj [("grant_types", .obj [("add", .arr [.str "authorization_code"]), ("essential", .bool true)])], .obj [("grant_types", .obj [("add", .arr [.str "authorization_code", .str "refresh_token"])])], some (.obj [("grant_types", .obj [("add", .arr [.str "authorization_code", .str "refresh_token"]), ("essential", .bool true)])]), .obj [], .obj [("grant_types", .arr [.str "authorization_code", .str "refresh_token"])], false⟩,
  ⟨596, .obj [("grant_types", .obj [("add", .arr [.str "authorization_code"])])], .obj [("grant_types", .obj [("add", .arr [.str "authorization_code", .str "refresh_token"]), ("essential", .bool true)])], some (.obj [("grant_types", .obj [("add", .arr [.str "authorization_code", .str "refresh_token"]), ("essential", .bool true)])]), .obj [], .obj [("grant_types", .arr [.str "authorization_code", .str "refresh_token"])], false⟩,
  ⟨597, .obj [("grant_types", .obj [("add", .arr [.str "authorization_code"])])], .obj [("grant_types", .obj [("add", .arr [.str "authorization_code", .str "refresh_token"])])], some (.obj [("grant_types", .obj [("add", .arr [.str "authorization_code", .str "refresh_token"])])]), .obj [], .obj [("grant_types", .arr [.str "authorization_code", .str "refresh_token"])], false⟩,
  ⟨598, .obj [("grant_types", .obj [("add", .arr []), ("essential", .bool true)])], .obj [("grant_types", .obj [("default", .arr [.str "authorization_code"]), ("essential", .bool true)])], some (.obj [("grant_types", .obj [("add", .arr []), ("default", .arr [.str "authorization_code"]), ("essential", .bool true)])]), .obj [("grant_types", .arr [.str "authorization_code"])], .obj [("grant_types", .arr [.str "authorization_code"])], false⟩,
  ⟨599, .obj [("grant_types", .obj [("add", .arr []), ("essential", .bool true)])], .obj [("grant_types", .obj [("default", .arr [.str "authorization_code"])])], some (.obj [("grant_types", .obj [("add", .arr []), ("default", .arr [.str "authorization_code"]), ("essential", .bool true)])]), .obj [("grant_types", .arr [.str "authorization_code"])], .obj [("grant_types", .arr [.str "authorization_code"])], false⟩,
  ⟨600, .obj [("grant_types", .obj [("add", .arr [])])], .obj [("grant_types", .obj [("default", .arr [.str "authorization_code"]), ("essential", .bool true)])], some (.obj [("grant_types", .obj [("add", .arr []), ("default", .arr [.str "authorization_code"]), ("essential", .bool true)])]), .obj [("grant_types", .arr [.str "authorization_code"])], .obj [("grant_types", .arr [.str "authorization_code"])], false⟩,
  ⟨601, .obj [("grant_types", .obj [("add", .arr [])])], .obj [("grant_types", .obj [("default", .arr [.str "authorization_code"])])], some (.obj [("grant_types", .obj [("add", .arr []), ("default", .arr [.str "authorization_code"])])]), .obj [("grant_types", .arr [.str "authorization_code"])], .obj [("grant_types", .arr [.str "authorization_code"])], false⟩,
  ⟨602, .obj [("grant_types", .obj [("add", .arr []), ("essential", .bool true)])], .obj [("grant_types", .obj [("default", .arr [.str "authorization_code"]), ("essential", .bool true)])], some (.obj [("grant_types", .obj [("add", .arr []), ("default", .arr [.str "authorization_code"]), ("essential", .bool true)])]), .obj [("grant_types", .arr [.str "password"])], .obj [("grant_types", .arr [.str "password"])], false⟩,
  ⟨603, .obj [("grant_types", .obj [("add", .arr []), ("essential", .bool true)])], .obj [("grant_types", .obj [("default", .arr [.str "authorization_code"])])], some (.obj [("grant_types", .obj [("add", .arr []), ("default", .arr [.str "authorization_code"]), ("essential", .bool true)])]), .obj [("grant_types", .arr [.str "password"])], .obj [("grant_types", .arr [.str "password"])], false⟩,
  ⟨604, .obj [("grant_types", .obj [("add", .arr [])])], .obj [("grant_types", .obj [("default", .arr [.str "authorization_code"]), ("essential", .bool true)])], some (.obj [("grant_types", .obj [("add", .arr []), ("default", .arr [.str "authorization_code"]), ("essential", .bool true)])]), .obj [("grant_types", .arr [.str "password"])], .obj [("grant_types", .arr [.str "password"])], false⟩,
  ⟨605, .obj [("grant_types", .obj [("add", .arr [])])], .obj [("grant_types", .obj [("default", .arr [.str "authorization_code"])])], some (.obj [("grant_types", .obj [("add", .arr []), ("default", .arr [.str "authorization_code"])])]), .obj [("grant_types", .arr [.str "password"])], .obj [("grant_types", .arr [.str "password"])], false⟩,
  ⟨606, .obj [("grant_types", .obj [("add", .arr []), ("essential", .bool true)])], .obj [("grant_types", .obj [("default", .arr [.str "authorization_code"]), ("essential", .bool true)])], some (.obj [("grant_types", .obj [("add", .arr []), ("default", .arr [.str "authorization_code"]), ("essential", .bool true)])]), .obj [("grant_types", .arr [.str "authorization_code", .str "refresh_token"])], .obj [("grant_types", .arr [.str "authorization_code", .str "refresh_token"])], false⟩,
  ⟨607, .obj [("grant_types", .obj [("add", .arr []), ("essential", .bool true)])], .obj [("grant_types", .obj [("default", .arr [.str "authorization_code"])])], some (.obj [("grant_types", .obj [("add", .arr []), ("default", .arr [.str "authorization_code"]), ("essential", .bool true)])]), .obj [("grant_types", .arr [.str "authorization_code", .str "refresh_token"])], .obj [("grant_types", .arr [.str "authorization_code", .str "refresh_token"])], false⟩,
  ⟨608, .obj [("grant_types", .obj [("add", .arr [])])], .obj [("grant_types", .obj [("default", .arr [.str "authorization_code"]), ("essential", .bool true)])], some (.obj [("grant_types", .obj [("add", .arr []), ("default", .arr [.str "authorization_code"]), ("essential", .bool true)])]), .obj [("grant_types", .arr [.str "authorization_code", .str "refresh_token"])], .obj [("grant_types", .arr [.str "authorization_code", .str "refresh_token"])], false⟩,
  ⟨609, .obj [("grant_types", .obj [("add", .arr [])])], .obj [("grant_types", .obj [("default", .arr [.str "authorization_code"])])], some (.obj [("grant_types", .obj [("add", .arr []), ("default", .arr [.str "authorization_code"])])]), .obj [("grant_types", .arr [.str "authorization_code", .str "refresh_token"])], .obj [("grant_types", .arr [.str "authorization_code", .str "refresh_token"])], false⟩,
  ⟨610, .obj [("grant_types", .obj [("add", .arr []), ("essential", .bool true)])], .obj [("grant_types", .obj [("default", .arr [.str "authorization_code"]), ("essential", .bool true)])], some (.obj [("grant_types", .obj [("add", .arr []), ("default", .arr [.str "authorization_code"]), ("essential", .bool true)])]), .obj [("grant_types", .arr [.str "authorization_code", .str "password"])], .obj [("grant_types", .arr [.str "authorization_code", .str "password"])], false⟩,
  ⟨611, .obj [("grant_types", .obj [("add", .arr []), ("essential", .bool true)])], .obj [("grant_types", .obj [("default", .arr [.str "authorization_code"])])], some (.obj [("grant_types", .obj [("add", .arr []), ("default", .arr [.str "authorization_code"]), ("essential", .bool true)])]), .obj [("grant_types", .arr [.str "authorization_code", .str "password"])], .obj [("grant_types", .arr [.str "authorization_code", .str "password"])], false⟩,
  ⟨612, .obj [("grant_types", .obj [("add", .arr [])])], .obj [("grant_types", .obj [("default", .arr [.str "authorization_code"]), ("essential", .bool true)])], some (.obj [("grant_types", .obj [("add", .arr []), ("default", .arr [.str "authorization_code"]), ("essential", .bool true)])]), .obj [("grant_types", .arr [.str "authorization_code", .str "password"])], .obj [("grant_types", .arr [.str "authorization_code", .str "password"])], false⟩,
  ⟨613, .obj [("grant_types", .obj [("add", .arr [])])], .obj [("grant_types", .obj [("default", .arr [.str "authorization_code"])])], some (.obj [("grant_types", .obj [("add", .arr []), ("default", .arr [.str "authorization_code"])])]), .obj [("grant_types", .arr [.str "authorization_code", .str "password"])], .obj [("grant_types", .arr [.str "authorization_code", .str "password"])], false⟩,
  ⟨614, .obj [("grant_types", .obj [("add", .arr []), ("essential", .bool true)])], .obj [("grant_types", .obj [("default", .arr [.str "authorization_code"]), ("essential", .bool true)])], some (.obj [("grant_types", .obj [("add", .arr []), ("default", .arr [.str "authorization_code"]), ("essential", .bool true)])]), .obj [("grant_types", .arr [])], .obj [("grant_types", .arr [])], false⟩,
  ⟨615, .obj [("grant_types", .obj [("add", .arr []), ("essential", .bool true)])], .obj [("grant_types", .obj [("default", .arr [.str "authorization_code"])])], some (.obj [("grant_types", .obj [("add", .arr []), ("default", .arr [.str "authorization_code"]), ("essential", .bool true)])]), .obj [("grant_types", .arr [])], .obj [("grant_types", .arr [])], false⟩,
  ⟨616, .obj [("grant_types", .obj [("add", .arr [])])], .obj [("grant_types", .obj [("default", .arr [.str "authorization_code"]), ("essential", .bool true)])], some (.obj [("grant_types", .obj [("add", .arr []), ("default", .arr [.str "authorization_code"]), ("essential", .bool true)])]), .obj [("grant_types", .arr [])], .obj [("grant_types", .arr [])], false⟩,
  ⟨617, .obj [("grant_types", .obj [("add", .arr [])])], .obj [("grant_types", .obj [("default", .arr [.str "authorization_code"])])], some (.obj [("grant_types", .obj [("add", .arr []), ("default", .arr [.str "authorization_code"])])]), .obj [("grant_types", .arr [])], .obj [("grant_types", .arr [])], false⟩,
  ⟨618, .obj [("grant_types", .obj [("add", .arr []), ("essential", .bool true)])], .obj [("grant_types", .obj [("default", .arr [.str "authorization_code"]), ("essential", .bool true)])], some (.obj [("grant_types", .obj [("add", .arr []), ("default", .arr [.str "authorization_code"]), ("essential", .bool true)])]), .obj [], .obj [("grant_types", .arr [])], false⟩,
  ⟨619, .obj [("grant_types", .obj [("add", .arr []), ("essential", .bool true)])], .obj [("grant_types", .obj [("default", .arr [.str "authorization_code"])])], some (.obj [("grant_types", .obj [("add", .arr []), ("default", .arr [.str "authorization_code"]), ("essential", .bool true)])]), .obj [], .obj [("grant_types", .arr [])], false⟩,
  ⟨620, .obj [("grant_types", .obj [("add", .arr [])])], .obj [("grant_types", .obj [("default", .arr [.str "authorization_code"]), ("essential", .bool true)])], some (.obj [("grant_types", .obj [("add", .arr []), ("default", .arr [.str "authorization_code"]), ("essential", .bool true)])]), .obj [], .obj [("grant_types", .arr [])], false⟩,
  ⟨621, .obj [("grant_types", .obj [("add", .arr [])])], .obj [("grant_types", .obj [("default", .arr [.str "authorization_code"])])], some (.obj [("grant_types", .obj [("add", .arr []), ("default", .arr [.str "authorization_code"])])]), .obj [], .obj [("grant_types", .arr [])], false⟩,
  ⟨622, .obj [("grant_types", .obj [("add", .arr []), ("essential", .bool true)])], .obj [("grant_types", .obj [("default", .arr [.str "authorization_code", .str "refresh_token"]), ("essential", .bool true)])], some (.obj [("grant_types", .obj [("add", .arr []), ("default", .arr [.str "authorization_code", .str "refresh_token"]), ("essential", .bool true)])]), .obj [("grant_types", .arr [.str "authorization_code"])], .obj [("grant_types", .arr [.str "authorization_code"])], false⟩,
  ⟨623, .obj [("grant_types", .obj [("add", .arr []), ("essential", .bool true)])], .obj [("grant_types", .obj [("default", .arr [.str "authorization_code", .str "refresh_token"])])], some (.obj [("grant_types", .obj [("add", .arr []), ("default", .arr [.str "authorization_code", .str "refresh_token"]), ("essential", .bool true)])]), .obj [("grant_types", .arr [.str "authorization_code"])], .obj [("grant_types", .arr [.str "authorization_code"])], false⟩,
  ⟨624, .obj [("grant_types", .obj [("add", .arr [])])], .obj [("grant_types", .obj [("default", .arr [.str "authorization_code", .str "refresh_token"]), ("essential", .bool true)])], some (.obj [("grant_types", .obj [("add", .arr []), ("default", .arr [.str "authorization_code", .str "refresh_token"]), ("essential", .bool true)])]), .obj [("grant_types", .arr [.str "authorization_code"])], .obj [("grant_types", .arr [.str "authorization_code"])], false⟩,
  ⟨625, .obj [("grant_types", .obj [("add", .arr [])])], .obj [("grant_types", .obj [("default", .arr [.str "authorization_code", .str "refresh_token"])])], some (.obj [("grant_types", .obj [("add", .arr []), ("default", .arr [.str "authorization_code", .str "refresh_token"])])]), .obj [("grant_types", .arr [.str "authorization_code"])], .obj [("grant_types", .arr [.str "authorization_code"])], false⟩,
  ⟨626, .obj [("grant_types", .obj [("add", .arr []), ("essential", .bool true)])], .obj [("grant_types", .obj [("default", .arr [.str "authorization_code", .str "refresh_token"]), ("essential", .bool true)])], some (.obj [("grant_types", .obj [("add", .arr []), ("default", .arr [.str "authorization_code", .str "refresh_token"]), ("essential", .bool true)])]), .obj [("grant_types", .arr [.str "password"])], .obj [("grant_types", .arr [.str "password"])], false⟩,
  ⟨627, .obj [("grant_types", .obj [("add", .arr []), ("essential", .bool true)])], .obj [("grant_types", .obj [("default", .arr [.str "authorization_code", .str "refresh_token"])])], some (.obj [("grant_types", .obj [("add", .arr []), ("default", .arr [.str "authorization_code", .str "refresh_token"]), ("essential", .bool true)])]), .obj [("grant_types", .arr [.str "password"])], .obj [("grant_types", .arr [.str "password"])], false⟩,
  ⟨628, .obj [("grant_types", .obj [("add", .arr [])])], .obj [("grant_types", .obj [("default", .arr [.str "authorization_code", .str "refresh_token"]), ("essential", .bool true)])], some (.obj [("grant_types", .obj [("add", .arr []), ("default", .arr [.str "authorization_code", .str "refresh_token"]), ("essential", .bool true)])]), .obj [("grant_types", .arr [.str "password"])], .obj [("grant_types", .arr [.str "password"])], false⟩,
  ⟨629, .obj [("grant_types", .obj [("add", .arr [])])], .obj [("grant_types", .obj [("default", .arr [.str "authorization_code", .str "refresh_token"])])], some (.obj [("grant_types", .obj [("add", .arr []), ("default", .arr [.str "authorization_code", .str "refresh_token"])])]), .obj [("grant_types", .arr [.str "password"])], .obj [("grant_types", .arr [.str "password"])], false⟩,
  ⟨630, .obj [("grant_types", .obj [("add", .arr []), ("essential", .bool true)])], .obj [("grant_types", .obj [("default", .arr [.str "authorization_code", .str "refresh_token"]), ("essential", .bool true)])], some (.obj [("grant_types", .obj [("add", .arr []), ("default", .arr [.str "authorization_code", .str "refresh_token"]), ("essential", .bool true)])]), .obj [("grant_types", .arr [.str "authorization_code", .str "refresh_token"])], .obj [("grant_types", .arr [.str "authorization_code", .str "refresh_token"])], false⟩,
  ⟨631, .obj [("grant_types", .obj [("add", .arr []), ("essential", .bool true)])], .obj [("grant_types", .obj [("default", .arr [.str "authorization_code", .str "refresh_token"])])], some (.obj [("grant_types", .obj [("add", .arr []), ("default", .arr [.str "authorization_code", .str "refresh_token"]), ("essential", .bool true)])]), .obj [("grant_types", .arr [.str "authorization_code", .str "refresh_token"])], .obj [("grant_types", .arr [.str "authorization_code", .str "refresh_token"])], false⟩,
  ⟨632, .obj [("grant_types", .obj [("add", .arr [])])], .obj [("grant_types", .obj [("default", .arr [.str "authorization_code", .str "refresh_token"]), ("essential", .bool true)])], some (.obj [("grant_types", .obj [("add", .arr []), ("default", .arr [.str "authorization_code", .str "refresh_token"]), ("essential", .bool true)])]), .obj [("grant_types", .arr [.str "authorization_code", .str "refresh_token"])], .obj [("grant_types", .arr [.str "authorization_code", .str "refresh_token"])], false⟩,
  ⟨633, .obj [("grant_types", .obj [("add", .arr [])])], .obj [("grant_types", .obj [("default", .arr [.str "authorization_code", .str "refresh_token"])])], some (.obj [("grant_types", .obj [("add", .arr []), ("default", .arr [.str "authorization_code", .str "refresh_token"])])]), .obj [("grant_types", .arr [.str "authorization_code", .str "refresh_token"])], .obj [("grant_types", .arr [.str "authorization_code", .str "refresh_token"])], false⟩,
  ⟨634, .obj [("grant_types", .obj [("add", .arr []), ("essential", .bool true)])], .obj [("grant_types", .obj [("default", .arr [.str "authorization_code", .str "refresh_token"]), ("essential", .bool true)])], some (.obj [("grant_types", .obj [("add", .arr []), ("default", .arr [.str "authorization_code", .str "refresh_token"]), ("essential", .bool true)])]), .obj [("grant_types", .arr [.str "authorization_code", .str "password"])], .obj [("grant_types", .arr [.str "authorization_code", .str "password"])], false⟩,
  ⟨635, .obj [("grant_types", .obj [("add", .arr []), ("essential", .bool true)])], .obj [("grant_types", .obj [("default", .arr [.str "authorization_code", .str "refresh_token"])])], some (.obj [("grant_types", .obj [("add", .arr []), ("default", .arr [.str "authorization_code", .str "refresh_token"]), ("essential", .bool true)])]), .obj [("grant_types", .arr [.str "authorization_code", .str "password"])], .obj [("grant_types", .arr [.str "authorization_code", .str "password"])], false⟩,
  ⟨636, .obj [("grant_types", .obj [("add", .arr [])])], .obj [("grant_types", .obj [("default", .arr [.str "authorization_code", .str "refresh_token"]), ("essential", .bool true)])], some (.obj [("grant_types", .obj [("add", .arr []), ("default", .arr [.str "authorization_code", .str "refresh_token"]), ("essential", .bool true)])]), .obj [("grant_types", .arr [.str "authorization_code", .str "password"])], .obj [("grant_types", .arr [.str "authorization_code", .str "password"])], false⟩,
  ⟨637, .obj [("grant_types", .obj [("add", .arr [])])], .obj [("grant_types", .obj [("default", .arr [.str "authorization_code", .str "refresh_token"])])], some (.obj [("grant_types", .obj [("add", .arr []), ("default", .arr [.str "authorization_code", .str "refresh_token"])])]), .obj [("grant_types", .arr [.str "authorization_code", .str "password"])], .obj [("grant_types", .arr [.str "authorization_code", .str "password"])], false⟩,
  ⟨638, .obj [("grant_types", .obj [("add", .arr []), ("essential", .bool true)])], .obj [("grant_types", .obj [("default", .arr [.str "authorization_code", .str "refresh_token"]), ("essential", .bool true)])], some (.obj [("grant_types", .obj [("add", .arr []), ("default", .arr [.str "authorization_code", .str "refresh_token"]), ("essential", .bool true)])]), .obj [("grant_types", .arr [])], .obj [("grant_types", .arr [])], false⟩,
  ⟨639, .obj [("grant_types", .obj [("add", .arr []), ("essential", .bool true)])], .obj [("grant_types", .obj [("default", .arr [.str "authorization_code", .str "refresh_token"])])], some (.obj [("grant_types", .obj [("add", .arr []), ("default", .arr [.str "authorization_code", .str "refresh_token"]), ("essential", .bool true)])]), .obj [("grant_types", .arr [])], .obj [("grant_types", .arr [])], false⟩,
  ⟨640, .obj [("grant_types", .obj [("add", .arr [])])], .obj [("grant_types", .obj [("default", .arr [.str "authorization_code", .str "refresh_token"]), ("essential", .bool true)])], some (.obj [("grant_types", .obj [("add", .arr []), ("default", .arr [.str "authorization_code", .str "refresh_token"]), ("essential", .bool true)])]), .obj [("grant_types", .arr [])], .obj [("grant_types", .arr [])], false⟩,
  ⟨641, .obj [("grant_types", .obj [("add", .arr [])])], .obj [("grant_types", .obj [("default", .arr [.str "authorization_code", .str "refresh_token"])])], some (.obj [("grant_types", .obj [("add", .arr []), ("default", .arr [.str "authorization_code", .str "refresh_token"])])]), .obj [("grant_types", .arr [])], .obj [("grant_types", .arr [])], false⟩,
  ⟨642, .obj [("grant_types", .obj [("add", .arr []), ("essential", .bool true)])], .obj [("grant_types", .obj [("default", .arr [.str "authorization_code", .str "refresh_token"]), ("essential", .bool true)])], some (.obj [("grant_types", .obj [("add", .arr []), ("default", .arr [.str "authorization_code", .str "refresh_token"]), ("essential", .bool true)])]), .obj [], .obj [("grant_types", .arr [])], false⟩,
  ⟨643, .obj [("grant_types", .obj [("add", .arr []), ("essential", .bool true)])], .obj [("grant_types", .obj [("default", .arr [.str "authorization_code", .str "refresh_token"])])], some (.obj [("grant_types", .obj [("add", .arr []), ("default", .arr [.str "authorization_code", .str "refresh_token"]), ("essential", .bool true)])]), .obj [], .obj [("grant_types", .arr [])], false⟩,
  ⟨644, .obj [("grant_types", .obj [("add", .arr [])])], .obj [("grant_types", .obj [("default", .arr [.str "authorization_code", .str "refresh_token"]), ("essential", .bool true)])], some (.obj [("grant_types", .obj [("add", .arr []), ("default", .arr [.str "authorization_code", .str "refresh_token"]), ("essential", .bool true)])]), .obj [], .obj [("grant_types", .arr [])], false⟩,
  ⟨645, .obj [("grant_types", .obj [("add", .arr [])])], .obj [("grant_types", .obj [("default", .arr [.str "authorization_code", .str "refresh_token"])])], some (.obj [("grant_types", .obj [("add", .arr []), ("default", .arr [.str "authorization_code", .str "refresh_token"])])]), .obj [], .obj [("grant_types", .arr [])], false⟩,
  ⟨646, .obj [("grant_types", .obj [("add", .arr [.str "authorization_code"]), ("essential", .bool true)])], .obj [("grant_types", .obj [("default", .arr [.str "authorization_code", .str "refresh_token"]), ("essential", .bool true)])], some (.obj [("grant_types", .obj [("add", .arr [.str "authorization_code"]), ("default", .arr [.str "authorization_code", .str "refresh_token"]), ("essential", .bool true)])]), .obj [("grant_types", .arr [.str "authorization_code"])], .obj [("grant_types", .arr [.str "authorization_code"])], false⟩,
  ⟨647, .obj [("grant_types", .obj [("add", .arr [.str "authorization_code"]), ("essential", .bool true)])], .obj [("grant_types", .obj [("default", .arr [.str "authorization_code", .str "refresh_token"])])], some (.obj [("grant_types", .obj [("add", .arr [.str "authorization_code"]), ("default", .arr [.str "authorization_code", .str "refresh_token"]), ("essential", .bool true)])]), .obj [("grant_types", .arr [.str "authorization_code"])], .obj [("grant_types", .arr [.str "authorization_code"])], false⟩,
  ⟨648, .obj [("grant_types", .obj [("add", .arr [.str "authorization_code"])])], .obj [("grant_types", .obj [("default", .arr [.str "authorization_code", .str "refresh_token"]), ("essential", .bool true)])], some (.obj [("grant_types", .obj [("add", .arr [.str "authorization_code"]), ("default", .arr [.str "authorization_code", .str "refresh_token"]), ("essential", .bool true)])]), .obj [("grant_types", .arr [.str "authorization_code"])], .obj [("grant_types", .arr [.str "authorization_code"])], false⟩,
  ⟨649, .obj [("grant_types", .obj [("add", .arr [.str "authorization_code"])])], .obj [("grant_types", .obj [("default", .arr [.str "authorization_code", .str "refresh_token"])])], some (.obj [("grant_types", .obj [("add", .arr [.str "authorization_code"]), ("default", .arr [.str "authorization_code", .str "refresh_token"])])]), .obj [("grant_types", .arr [.str "authorization_code"])], .obj [("grant_types", .arr [.str "authorization_code"])], false⟩,
  ⟨650, .obj [("grant_types", .obj [("add", .arr [.str "authorization_code"]), ("essential", .bool true)])], .obj [("grant_types", .obj [("default", .arr [.str "authorization_code", .str "refresh_token"]), ("essential", .bool true)])], some (.obj [("grant_types", .obj [("add", .arr [.str "authorization_code"]), ("default", .arr [.str "authorization_code", .str "refresh_token"]), ("essential", .bool true)])]), .obj [("grant_types", .arr [.str "password"])], .obj [("grant_types", .arr [.str "password", .str "authorization_code"])], false⟩,
  ⟨651, .obj [("grant_types", .obj [("add", .arr [.str "authorization_code"]), ("essential", .bool true)])], .obj [("grant_types", .obj [("default", .arr [.str "authorization_code", .str "refresh_token"])])], some (.obj [("grant_types", .obj [("add", .arr [.str "authorization_code"]), ("default", .arr [.str "authorization_code", .str "refresh_token"]), ("essential", .bool true)])]), .obj [("grant_types", .arr [.str "password"])], .obj [("grant_types", .arr [.str "password", .str "authorization_code"])], false⟩,
  ⟨652, .obj [("grant_types", .obj [("add", .arr [.str "authorization_code"])])], .obj [("grant_types", .obj [("default", .arr [.str "authorization_code", .str "refresh_token"]), ("essential", .bool true)])], some (.obj [("grant_types", .obj [("add", .arr [.str "authorization_code"]), ("default", .arr [.str "authorization_code", .str "refresh_token"]), ("essential", .bool true)])]), .obj [("grant_types", .arr [.str "password"])], .obj [("grant_types", .arr [.str "password", .str "authorization_code"])], false⟩,
  ⟨653, .obj [("grant_types", .obj [("add", .arr [.str "authorization_code"])])], .obj [("grant_types", .obj [("default", .arr [.str "authorization_code", .str "refresh_token"])])], some (.obj [("grant_types", .obj [("add", .arr [.str "authorization_code"]), ("default", .arr [.str "authorization_code", .str "refresh_token"])])]), .obj [("grant_types", .arr [.str "password"])], .obj [("grant_types", .arr [.str "password", .str "authorization_code"])], false⟩,
  ⟨654, .obj [("grant_types", .obj [("add", .arr [.str "authorization_code"]), ("essential", .bool true)])], .obj [("grant_types", .obj [("default", .arr [.str "authorization_code", .str "refresh_token"]), ("essential", .bool true)])], some (.obj [("grant_types", .obj [("add", .arr [.str "authorization_code"]), ("default", .arr [.str "authorization_code", .str "refresh_token"]), ("essential", .bool true)])]), .obj [("grant_types", .arr [.str "authorization_code", .str "refresh_token"])], .obj [("grant_types", .arr [.str "authorization_code", .str "refresh_token"])], false⟩,
  ⟨655, .obj [("grant_types", .obj [("add", .arr [.str "authorization_code"]), ("essential", .bool true)])], .obj [("grant_types", .obj [("default", .arr [.str "authorization_code", .str "refresh_token"])])], some (.obj [("grant_types", .obj [("add", .arr [.str "authorization_code"]), ("default", .arr [.str "authorization_code", .str "refresh_token"]), ("essential", .bool true)])]), .obj [("grant_types", .arr [.str "authorization_code", .str "refresh_token"])], .obj [("grant_types", .arr [.str "authorization_code", .str "refresh_token"])], false⟩,
  ⟨656, .obj [("grant_types", .obj [("add", .arr [.str "authorization_code"])])], .obj [("grant_types", .obj [("default", .arr [.str "authorization_code", .str "refresh_token"]), ("essential", .bool true)])], some (.obj [("grant_types", .obj [("add", .arr [.str "authorization_code"]), ("default", .arr [.str "authorization_code", .str "refresh_token"]), ("essential", .bool true)])]), .obj [("grant_types", .arr [.str "authorization_code", .str "refresh_token"])], .obj [("grant_types", .arr [.str "authorization_code", .str "refresh_token"])], false⟩,
  ⟨657, .obj [("grant_types", .obj [("add", .arr [.str "authorization_code"])])], .obj [("grant_types", .obj [("default", .arr [.str "authorization_code", .str "refresh_token"])])], some (.obj [("grant_types", .obj [("add", .arr [.str "authorization_code"]), ("default", .arr [.str "authorization_code", .str "refresh_token"])])]), .obj [("grant_types", .arr [.str "authorization_code", .str "refresh_token"])], .obj [("grant_types", .arr [.str "authorization_code", .str "refresh_token"])], false⟩,
  ⟨658, .obj [("grant_types", .obj [("add", .arr [.str "authorization_code"]), ("essential", .bool true)])], .obj [("grant_types", .obj [("default", .arr [.str "authorization_code", .str "refresh_token"]), ("essential", .bool true)])], some (.obj [("grant_types", .obj [("add", .arr [.str "authorization_code"]), ("default", .arr [.str "authorization_code", .str "refresh_token"]), ("essential", .bool true)])]), .obj [("grant_types", .arr [.str "authorization_code", .str "password"])], .obj [("grant_types", .arr [.str "authorization_code", .str "password"])], false⟩,
  ⟨659, .obj [("grant_types", .obj [("add", .arr [.str "authorization_code"]), ("essential", .bool true)])], .obj [("grant_types", .obj [("default", .arr [.str "authorization_code", .str "refresh_token"])])], some (.obj [("grant_types", .obj [("add", .arr [.str "authorization_code"]), ("default", .arr [.str "authorization_code", .str "refresh_token"]), ("essential", .bool true)])]), .obj [("grant_types", .arr [.str "authorization_code", .str "password"])], .obj [("grant_types", .arr [.str "authorization_code", .str "password"])], false⟩,
  ⟨660, .obj [("grant_types", .obj [("add", .arr [.str "authorization_code"])])], .obj [("grant_types", .obj [("default", .arr [.str "authorization_code", .str "refresh_token"]), ("essential", .bool true)])], some (.obj [("grant_types", .obj [("add", .arr [.str "authorization_code"]), ("default", .arr [.str "authorization_code", .str "refresh_token"]), ("essential", .bool true)])]), .obj [("grant_types", .arr [.str "authorization_code", .str "password"])], .obj [("grant_types", .arr [.str "authorization_code", .str "password"])], false⟩,
  ⟨661, .obj [("grant_types", .obj [("add", .arr [.str "authorization_code"])])], .obj [("grant_types", .obj [("default", .arr [.str "authorization_code", .str "refresh_token"])])], some (.obj [("grant_types", .obj [("add", .arr [.str "authorization_code"]), ("default", .arr [.str "authorization_code", .str "refresh_token"])])]), .obj [("grant_types", .arr [.str "authorization_code", .str "password"])], .obj [("grant_types", .arr [.str "authorization_code", .str "password"])], false⟩,
  ⟨662, .obj [("grant_types", .obj [("add", .arr [.str "authorization_code"]), ("essential", .bool true)])], .obj [("grant_types", .obj [("default", .arr [.str "authorization_code", .str "refresh_token"]), ("essential", .bool true)])], some (.obj [("grant_types", .obj [("add", .arr [.str "authorization_code"]), ("default", .arr [.str "authorization_code", .str "refresh_token"]), ("essential", .bool true)])]), .obj [("grant_types", .arr [])], .obj [("grant_types", .arr [.str "authorization_code"])], false⟩,
  ⟨663, .obj [("grant_types", .obj [("add", .arr [.str "authorization_code"]), ("essential", .bool true)])], .obj [("grant_types", .obj [("default", .arr [.str "authorization_code", .str "refresh_token"])])], some (.obj [("grant_types", .obj [("add", .arr [.str "authorization_code"]), ("default", .arr [.str "authorization_code", .str "refresh_token"]), ("essential", .bool true)])]), .obj [("grant_types", .arr [])], .obj [("grant_types", .arr [.str "authorization_code"])], false⟩,
  ⟨664, .obj [("grant_types", .obj [("add", .arr [.str "authorization_code"])])], .obj [("grant_types", .obj [("default", .arr [.str "authorization_code", .str "refresh_token"]), ("essential", .bool true)])], some (.obj [("grant_types", .obj [("add", .arr [.str "authorization_code"]), ("default", .arr [.str "authorization_code", .str "refresh_token"]), ("essential", .bool true)])]), .obj [("grant_types", .arr [])], .obj [("grant_types", .arr [.str "authorization_code"])], false⟩,
  ⟨665, .obj [("grant_types", .obj [("add", .arr [.str "authorization_code"])])], .obj [("grant_types", .obj [("default", .arr [.str "authorization_code", .str "refresh_token"])])], some (.obj [("grant_types", .obj [("add", .arr [.str "authorization_code"]), ("default", .arr [.str "authorization_code", .str "refresh_token"])])]), .obj [("grant_types", .arr [])], .obj [("grant_types", .arr [.str "authorization_code"])], false⟩,
  ⟨666, .obj [("grant_types", .obj [("add", .arr [.str "authorization_code"]), ("essential", .bool true)])], .obj [("grant_types", .obj [("default", .arr [.str "authorization_code", .str "refresh_token"]), ("essential", .bool true)])], some (.obj [("grant_types", .obj [("add", .arr [.str "authorization_code"]), ("default", .arr [.str "authorization_code", .str "refresh_token"]), ("essential", .bool true)])]), .obj [], .obj [("grant_types", .arr [.str "authorization_code"])], false⟩,
  ⟨667, .obj [("grant_types", .obj [("add", .arr [.str "authorization_code"]), ("essential", .bool true)])], .obj [("grant_types", .obj [("default", .arr [.str "authorization_code", .str "refresh_token"])])], some (.obj [("grant_types", .obj [("add", .arr [.str "authorization_code"]), ("default", .arr [.str "authorization_code", .str "refresh_token"]), ("essential", .bool true)])]), .obj [], .obj [("grant_types", .arr [.str "authorization_code"])], false⟩,
  ⟨668, .obj [("grant_types", .obj [("add", .arr [.str "authorization_code"])])], .obj [("grant_types", .obj [("default", .arr [.str "authorization_code", .str "refresh_token"]), ("essential", .bool true)])], some (.obj [("grant_types", .obj [("add", .arr [.str "authorization_code"]), ("default", .arr [.str "authorization_code", .str "refresh_token"]), ("essential", .bool true)])]), .obj [], .obj [("grant_types", .arr [.str "authorization_code"])], false⟩,
  ⟨669, .obj [("grant_types", .obj [("add", .arr [.str "authorization_code"])])], .obj [("grant_types", .obj [("default", .arr [.str "authorization_code", .str "refresh_token"])])], some (.obj [("grant_types", .obj [("add", .arr [.str "authorization_code"]), ("default", .arr [.str "authorization_code", .str "refresh_token"])])]), .obj [], .obj [("grant_types", .arr [.str "authorization_code"])], false⟩,
  ⟨670, .obj [("grant_types", .obj [("add", .arr []), ("essential", .bool true)])], .obj [("grant_types", .obj [("subset_of", .arr [.str "authorization_code"]), ("essential", .bool true)])], some (.obj [("grant_types", .obj [("add", .arr []), ("subset_of", .arr [.str "authorization_code"]), ("essential", .bool true)])]), .obj [("grant_types", .arr [.str "authorization_code"])], .obj [("grant_types", .arr [.str "authorization_code"])], false⟩,
  ⟨671, .obj [("grant_types", .obj [("add", .arr []), ("essential", .bool true)])], .obj [("grant_types", .obj [("subset_of", .arr [.str "authorization_code"])])], some (.obj [("grant_types", .obj [("add", .arr []), ("subset_of", .arr [.str "authorization_code"]), ("essential", .bool true)])]), .obj [("grant_types", .arr [.str "authorization_code"])], .obj [("grant_types", .arr [.str "authorization_code"])], false⟩,
  ⟨672, .obj [("grant_types", .obj [("add", .arr [])])], .obj [("grant_types", .obj [("subset_of", .arr [.str "authorization_code"]), ("essential", .bool true)])], some (.obj [("grant_types", .obj [("add", .arr []), ("subset_of", .arr [.str "authorization_code"]), ("essential", .bool true)])]), .obj [("grant_types", .arr [.str "authorization_code"])], .obj [("grant_types", .arr [.str "authorization_code"])], false⟩,
  ⟨673, .obj [("grant_types", .obj [("add", .arr [])])], .obj [("grant_types", .obj [("subset_of", .arr [.str "authorization_code"])])], some (.obj [("grant_types", .obj [("add", .arr []), ("subset_of", .arr [.str "authorization_code"])])]), .obj [("grant_types", .arr [.str "authorization_code"])], .obj [("grant_types", .arr [.str "authorization_code"])], false⟩,
  ⟨674, .obj [("grant_types", .obj [("add", .arr []), ("essential", .bool true)])], .obj [("grant_types", .obj [("subset_of", .arr [.str "authorization_code"]), ("essential", .bool true)])], some (.obj [("grant_types", .obj [("add", .arr []), ("subset_of", .arr [.str "authorization_code"]), ("essential", .bool true)])]), .obj [("grant_types", .arr [.str "password"])], .obj [("grant_types", .arr [])], false⟩,
  ⟨675, .obj [("grant_types", .obj [("add", .arr []), ("essential", .bool true)])], .obj [("grant_types", .obj [("subset_of", .arr [.str "authorization_code"])])], some (.obj [("grant_types", .obj [("add", .arr []), ("subset_of", .arr [.str "authorization_code"]), ("essential", .bool true)])]), .obj [("grant_types", .arr [.str "password"])], .obj [("grant_types", .arr [])], false⟩,
  ⟨676, .obj [("grant_types", .obj [("add", .arr [])])], .obj [("grant_types", .obj [("subset_of", .arr [.str "authorization_code"]), ("essential", .bool true)])], some (.obj [("grant_types", .obj [("add", .arr []), ("subset_of", .arr [.str "authorization_code"]), ("essential", .bool true)])]), .obj [("grant_types", .arr [.str "password"])], .obj [("grant_types", .arr [])], false⟩,
  ⟨677, .obj [("grant_types", .obj [("add", .arr [])])], .obj [("grant_types", .obj [("subset_of", .arr [.str "authorization_code"])])], some (.obj [("grant_types", .obj [("add", .arr []), ("subset_of", .arr [.str "authorization_code"])])]), .obj [("grant_types", .arr [.str "password"])], .obj [("grant_types", .arr [])], false⟩,
  ⟨678, .obj [("grant_types", .obj [("add", .arr []), ("essential", .bool true)])], .obj [("grant_types", .obj [("subset_of", .arr [.str "authorization_code"]), ("essential", .bool true)])], some (.obj [("grant_types", .obj [("add", .arr []), ("subset_of", .arr [.str "authorization_code"]), ("essential", .bool true)])]), .obj [("grant_types", .arr [.str "authorization_code", .str "refresh_token"])], .obj [("grant_types", .arr [.str "authorization_code"])], false⟩,
  ⟨679, .obj [("grant_types", .obj [("add", .arr []), ("essential", .bool true)])], .obj [("grant_types", .obj [("subset_of", .arr [.str "authorization_code"])])], some (.obj [("grant_types", .obj [("add", .arr []), ("subset_of", .arr [.str "authorization_code"]), ("essential", .bool true)])]), .obj [("grant_types", .arr [.str "authorization_code", .str "refresh_token"])], .obj [("grant_types", .arr [.str "authorization_code"])], false⟩,
  ⟨680, .obj [("grant_types", .obj [("add", .arr [])])], .obj [("grant_types", .obj [("subset_of", .arr [.str "authorization_code"]), ("essential", .bool true)])], some (.obj [("grant_types", .obj [("add", .arr []), ("subset_of", .arr [.str "authorization_code"]), ("essential", .bool true)])]), .obj [("grant_types", .arr [.str "authorization_code", .str "refresh_token"])], .obj [("grant_types", .arr [.str "authorization_code"])], false⟩,
  ⟨681, .obj [("grant_types", .obj [("add", .arr [])])], .obj [("grant_types", .obj [("subset_of", .arr [.str "authorization_code"])])], some (.obj [("grant_types", .obj [("add", .arr []), ("subset_of", .arr [.str "authorization_code"])])]), .obj [("grant_types", .arr [.str "authorization_code", .str "refresh_token"])], .obj [("grant_types", .arr [.str "authorization_code"])], false⟩,
  ⟨682, .obj [("grant_types", .obj [("add", .arr []), ("essential", .bool true)])], .obj [("grant_types", .obj [("subset_of", .arr [.str "authorization_code"]), ("essential", .bool true)])], some (.obj [("grant_types", .obj [("add", .arr []), ("subset_of", .arr [.str "authorization_code"]), ("essential", .bool true)])]), .obj [("grant_types", .arr [.str "authorization_code", .str "password"])], .obj [("grant_types", .arr [.str "authorization_code"])], false⟩,
  ⟨683, .obj [("grant_types", .obj [("add", .arr []), ("essential", .bool true)])], .obj [("grant_types", .obj [("subset_of", .arr [.str "authorization_code"])])], some (.obj [("grant_types", .obj [("add", .arr []), ("subset_of", .arr [.str "authorization_code"]), ("essential", .bool true)])]), .obj [("grant_types", .arr [.str "authorization_code", .str "password"])], .obj [("grant_types", .arr [.str "authorization_code"])], false⟩,
  ⟨684, .obj [("grant_types", .obj [("add", .arr [])])], .obj [("grant_types", .obj [("subset_of", .arr [.str "authorization_code"]), ("essential", .bool true)])], some (.obj [("grant_types", .obj [("add", .arr []), ("subset_of", .arr [.str "authorization_code"]), ("essential", .bool true)])]), .obj [("grant_types", .arr [.str "authorization_code", .str "password"])], .obj [("grant_types", .arr [.str "authorization_code"])], false⟩,
  ⟨685, .obj [("grant_types", .obj [("add", .arr [])])], .obj [("grant_types", .obj [("subset_of", .arr [.str "authorization_code"])])], some (.obj [("grant_types", .obj [("add", .arr []), ("subset_of", .arr [.str "authorization_code"])])]), .obj [("grant_types", .arr [.str "authorization_code", .str "password"])], .obj [("grant_types", .arr [.str "authorization_code"])], false⟩,
  ⟨686, .obj [("grant_types", .obj [("add", .arr []), ("essential", .bool true)])], .obj [("grant_types", .obj [("subset_of", .arr [.str "authorization_code"]), ("essential", .bool true)])], some (.obj [("grant_types", .obj [("add", .arr []), ("subset_of", .arr [.str "authorization_code"]), ("essential", .bool true)])]), .obj [("grant_types", .arr [])], .obj [("grant_types", .arr [])], false⟩,
  ⟨687, .obj [("grant_types", .obj [("add", .arr []), ("essential", .bool true)])], .obj [("grant_types", .obj [("subset_of", .arr [.str "authorization_code"])])], some (.obj [("grant_types", .obj [("add", .arr []), ("subset_of", .arr [.str "authorization_code"]), ("essential", .bool true)])]), .obj [("grant_types", .arr [])], .obj [("grant_types", .arr [])], false⟩,
  ⟨688, .obj [("grant_types", .obj [("add", .arr [])])], .obj [("grant_types", .obj [("subset_of", .arr [.str "authorization_code"]), ("essential", .bool true)])], some (.obj [("grant_types", .obj [("add", .arr []), ("subset_of", .arr [.str "authorization_code"]), ("essential", .bool true)])]), .obj [("grant_types", .arr [])], .obj [("grant_types", .arr [])], false⟩,
  ⟨689, .obj [("grant_types", .obj [("add", .arr [])])], .obj [("grant_types", .obj [("subset_of", .arr [.str "authorization_code"])])], some (.obj [("grant_types", .obj [("add", .arr []), ("subset_of", .arr [.str "authorization_code"])])]), .obj [("grant_types", .arr [])], .obj [("grant_types", .arr [])], false⟩,
  ⟨690, .obj [("grant_types", .obj [("add", .arr []), ("essential", .bool true)])], .obj [("grant_types", .obj [("subset_of", .arr [.str "authorization_code"]), ("essential", .bool true)])], some (.obj [("grant_types", .obj [("add", .arr []), ("subset_of", .arr [.str "authorization_code"]), ("essential", .bool true)])]), .obj [], .obj [("grant_types", .arr [])], false⟩,
  ⟨691, .obj [("grant_types", .obj [("add", .arr []), ("essential", .bool true)])], .obj [("grant_types", .obj [("subset_of", .arr [.str "authorization_code"])])], some (.obj [("grant_types", .obj [("add", .arr []), ("subset_of", .arr [.str "authorization_code"]), ("essential", .bool true)])]), .obj [], .obj [("grant_types", .arr [])], false⟩,
  ⟨692, .obj [("grant_types", .obj [("add", .arr [])])], .obj [("grant_types", .obj [("subset_of", .arr [.str "authorization_code"]), ("essential", .bool true)])], some (.obj [("grant_types", .obj [("add", .arr []), ("subset_of", .arr [.str "authorization_code"]), ("essential", .bool true)])]), .obj [], .obj [("grant_types", .arr [])], false⟩,
  ⟨693, .obj [("grant_types", .obj [("add", .arr [])])], .obj [("grant_types", .obj [("subset_of", .arr [.str "authorization_code"])])], some (.obj [("grant_types", .obj [("add", .arr []), ("subset_of", .arr [.str "authorization_code"])])]), .obj [], .obj [("grant_types", .arr [])], false⟩,
  ⟨694, .obj [("grant_types", .obj [("add", .arr []), ("essential", .bool true)])], .obj [("grant_types", .obj [("subset_of", .arr [.str "authorization_code", .str "refresh_token"]), ("essential", .bool true)])], some (.obj [("grant_types", .obj [("add", .arr []), ("subset_of", .arr [.str "authorization_code", .str "refresh_token"]), ("essential", .bool true)])]), .obj [("grant_types", .arr [.str "authorization_code"])], .obj [("grant_types", .arr [.str "authorization_code"])], false⟩,
  ⟨695, .obj [("grant_types", .obj [("add", .arr []), ("essential", .bool true)])], .obj [("grant_types", .obj [("subset_of", .arr [.str "authorization_code", .str "refresh_token"])])], some (.obj [("grant_types", .obj [("add", .arr []), ("subset_of", .arr [.str "authorization_code", .str "refresh_token"]), ("essential", .bool true)])]), .obj [("grant_types", .arr [.str "authorization_code"])], .obj [("grant_types", .arr [.str "authorization_code"])], false⟩,
  ⟨696, .obj [("grant_types", .obj [("add", .arr [])])], .obj [("grant_types", .obj [("subset_of", .arr [.str "authorization_code", .str "refresh_token"]), ("essential", .bool true)])], some (.obj [("grant_types", .obj [("add", .arr []), ("subset_of", .arr [.str "authorization_code", .str "refresh_token"]), ("essential", .bool true)])]), .obj [("grant_types", .arr [.str "authorization_code"])], .obj [("grant_types", .arr [.str "authorization_code"])], false⟩,
  ⟨697, .obj [("grant_types", .obj [("add", .arr [])])], .obj [("grant_types", .obj [("subset_of", .arr [.str "authorization_code", .str "refresh_token"])])], some (.obj [("grant_types", .obj [("add", .arr []), ("subset_of", .arr [.str "authorization_code", .str "refresh_token"])])]), .obj [("grant_types", .arr [.str "authorization_code"])], .obj [("grant_types", .arr [.str "authorization_code"])], false⟩,
  ⟨698, .obj [("grant_types", .obj [("add", .arr []), ("essential", .bool true)])], .obj [("grant_types", .obj [("subset_of", .arr [.str "authorization_code", .str "refresh_token"]), ("essential", .bool true)])], some (.obj [("grant_types", .obj [("add", .arr []), ("subset_of", .arr [.str "authorization_code", .str "refresh_token"]), ("essential", .bool true)])]), .obj [("grant_types", .arr [.str "password"])], .obj [("grant_types", .arr [])], false⟩,
  ⟨699, .obj [("grant_types", .obj [("add", .arr []), ("essential", .bool true)])], .obj [("grant_types", .obj [("subset_of", .arr [.str "authorization_code", .str "refresh_token"])])], some (.obj [("grant_types", .obj [("add", .arr []), ("subset_of", .arr [.str "authorization_code", .str "refresh_token"]), ("essential", .bool true)])]), .obj [("grant_types", .arr [.str "password"])], .obj [("grant_types", .arr [])], false⟩,
  ⟨700, .obj [("grant_types", .obj [("add", .arr [])])], .obj [("grant_types", .obj [("subset_of", .arr [.str "authorization_code", .str "refresh_token"]), ("essential", .bool true)])], some (.obj [("grant_types", .obj [("add", .arr []), ("subset_of", .arr [.str "authorization_code", .str "refresh_token"]), ("essential", .bool true)])]), .obj [("grant_types", .arr [.str "password"])], .obj [("grant_types", .arr [])], false⟩]

set_option maxRecDepth 100000 in
example : vectors1.all (fun v => v.applyMerged && v.mergeAndApply) = true := by decide +kernel

end Oidfed.Validation
